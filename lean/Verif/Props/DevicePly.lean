import Verif.Model.DevicePly
import Verif.Props.DeviceStl
/-!
C128 for .ply files: how a reader hands over the file, and what happens if it fails.
-/
namespace R3D
open Spec

/-- loops over states that correspond to each other as long as they deliver something do the same -/
theorem forEach_simOk {σ τ ε α μ : Type} {next : σ → Panics (Option (Except ε α) × σ)} {next' : τ → Panics (Option (Except ε α) × τ)}
    {push : μ → α → μ × Except ε Unit} (R : σ → τ → Prop)
    (h : ∀ s t, R s t → ∃ o s' t', next s = some (o, s') ∧ next' t = some (o, t') ∧ ((∃ x, o = some (.ok x)) → R s' t')) :
    ∀ (n : Nat) (s : σ) (t : τ) (m : μ), R s t → forEach next push n s m = forEach next' push n t m := by
  intro n
  induction n with
  | zero => intro s t m _; rfl
  | succ n ih =>
    intro s t m hr
    rw [forEach, forEach]
    obtain ⟨o, s', t', h1, h2, h3⟩ := h s t hr
    rw [h1, h2]
    rcases o with _ | _ | x
    · rfl
    · rfl
    · simp only
      rcases push m x with ⟨a, _ | _⟩
      · rfl
      · exact ih s' t' a (h3 ⟨_, rfl⟩)

/-! ### the header -/

theorem fetchLine_fails (d : Device) : (d.fetchLine).2.fails = d.fails := by
  unfold Device.fetchLine
  rcases devUntil d.fails d.portions with ⟨_ | _, _⟩ <;> rfl

theorem plyHeader_none : ∀ (n : Nat) (d : Device) (t : Bytes) (i : Nat) (s : PlyHeaderState), sees d t → plyHeaderLoop n t i s = none →
    devPlyHeaderLoop n d i s = none
  | 0, _, _, _, _, _, _ => rfl
  | n + 1, d, t, i, s, hs, h => by
    rw [plyHeaderLoop] at h
    rw [devPlyHeaderLoop]
    rcases sees_fetch hs with ⟨h1, d', h2, -⟩ | ⟨l, rest, d', h1, h2, h3⟩
    · rw [h1] at h; cases h
    · rw [h1] at h
      rw [h2]
      simp only at h ⊢
      rcases hl : plyHeaderLine l s with _ | _ | s' | hd
      · rfl
      · rw [hl] at h; cases h
      · rw [hl] at h
        exact plyHeader_none n d' rest (i + 1) s' h3 h
      · rw [hl] at h; cases h

theorem plyHeader_sim : ∀ (n k : Nat) (d : Device) (t : Bytes) (i : Nat) (s : PlyHeaderState) x, sees d t → n ≤ k → plyHeaderLoop n t i s = some x →
    (∃ e, x = .error e ∧ devPlyHeaderLoop k d i s = some (.error e)) ∨
      ∃ h rest d' j, x = .ok (h, rest, j) ∧ devPlyHeaderLoop k d i s = some (.ok (h, d', j)) ∧ sees d' rest ∧ d'.fails = d.fails
  | 0, _, _, _, _, _, _, _, _, h => by cases h
  | n + 1, 0, _, _, _, _, _, _, hk, _ => by omega
  | n + 1, k + 1, d, t, i, s, x, hs, hk, h => by
    rw [plyHeaderLoop] at h
    rw [devPlyHeaderLoop]
    rcases sees_fetch hs with ⟨h1, d', h2, -⟩ | ⟨l, rest, d', h1, h2, h3⟩
    · rw [h1] at h
      rw [h2]
      exact .inl ⟨_, (Option.some.inj h).symm, rfl⟩
    · have hf := fetchLine_fails d
      rw [h2] at hf
      rw [h1] at h
      rw [h2]
      simp only at h hf ⊢
      rcases hl : plyHeaderLine l s with _ | e | s' | hd
      · rw [hl] at h; cases h
      · rw [hl] at h
        exact .inl ⟨_, (Option.some.inj h).symm, rfl⟩
      · rw [hl] at h
        rcases plyHeader_sim n k d' rest (i + 1) s' x h3 (by omega) h with h4 | ⟨a, b, c, j, q1, q2, q3, q4⟩
        · exact .inl h4
        · exact .inr ⟨a, b, c, j, q1, q2, q3, q4.trans hf⟩
      · rw [hl] at h
        exact .inr ⟨hd, rest, d', i + 1, (Option.some.inj h).symm, rfl, h3, hf⟩

/-- a header with something behind it is seen even if the reader fails later on -/
theorem plyHeader_whole : ∀ (n : Nat) (d : Device) (i : Nat) (s : PlyHeaderState) h rest j, Proper d →
    plyHeaderLoop n d.content i s = some (.ok (h, rest, j)) → rest ≠ [] →
    ∃ d', devPlyHeaderLoop n d i s = some (.ok (h, d', j)) ∧ Proper d' ∧ d'.content = rest
  | 0, _, _, _, _, _, _, _, h, _ => by cases h
  | n + 1, d, i, s, hd, rest, j, hp, h, hr => by
    rw [plyHeaderLoop] at h
    rw [devPlyHeaderLoop]
    rcases hf : fetchLine d.content with _ | ⟨l, r⟩
    · rw [hf] at h; cases h
    · rw [hf] at h
      simp only at h
      have key : r ≠ [] → ∃ d', d.fetchLine = (some l, d') ∧ Proper d' ∧ d'.content = r := by
        intro hne
        have hm : (10 : UInt8) ∈ d.content := by
          by_contra hm
          unfold fetchLine at hf
          rw [readUntilNl_not_mem hm] at hf
          simp only at hf
          split at hf
          · cases hf
          · obtain ⟨-, rfl⟩ := Prod.mk.inj (Option.some.inj hf)
            exact hne rfl
        obtain ⟨e1, e2, e3⟩ := (devUntil_spec d.fails d.portions hp).2 (.inr hm)
        rw [← content_eq] at e1 e2
        unfold Device.fetchLine
        unfold fetchLine at hf
        rcases hu : devUntil d.fails d.portions with ⟨o, ps⟩
        rw [hu] at e1 e2 e3
        simp only at e1 e2 e3
        subst e1
        simp only
        by_cases hb : (readUntilNl d.content).1.length = 0
        · rw [if_pos hb] at hf; cases hf
        · rw [if_neg hb] at hf ⊢
          obtain ⟨rfl, rfl⟩ := Prod.mk.inj (Option.some.inj hf)
          exact ⟨_, rfl, e3, e2⟩
      rcases hl : plyHeaderLine l s with _ | e | s' | hd'
      · rw [hl] at h; cases h
      · rw [hl] at h; cases h
      · rw [hl] at h
        simp only at h
        have hne : r ≠ [] := by
          rintro rfl
          cases n with
          | zero => cases h
          | succ n =>
            rw [plyHeaderLoop] at h
            simp [fetchLine, readUntilNl] at h
        obtain ⟨d', q1, q2, q3⟩ := key hne
        rw [q1]
        simp only
        rw [hl]
        rw [← q3] at h
        exact plyHeader_whole n d' (i + 1) s' hd rest j q2 h hr
      · rw [hl] at h
        simp only [Option.some.injEq, Except.ok.injEq, Prod.mk.injEq] at h
        obtain ⟨rfl, rfl, rfl⟩ := h
        obtain ⟨d', q1, q2, q3⟩ := key hr
        rw [q1]
        simp only
        rw [hl]
        exact ⟨d', rfl, q2, q3⟩

/-! ### binary -/

/-- code that does the same on a reader as on its bytes -/
def sameRead {β : Type} (a : DevRead β) (b : Bytes → Option (β × Bytes)) : Prop :=
  ∀ d, Proper d → (b d.content = none ∧ ∃ d', a d = (none, d')) ∨ ∃ x d', b d.content = some (x, d'.content) ∧ a d = (some x, d') ∧ Proper d'

theorem sameRead_andThen {β γ : Type} {a : DevRead β} {b : Bytes → Option (β × Bytes)} {f : β → DevRead γ} {g : β → Bytes → Option (γ × Bytes)}
    (h : sameRead a b) (hf : ∀ x, sameRead (f x) (g x)) : sameRead (a.andThen f) (fun s => (b s).bind fun r => g r.1 r.2) := by
  intro d hd
  unfold DevRead.andThen
  beta_reduce
  rcases h d hd with ⟨h1, d', h2⟩ | ⟨x, d', h1, h2, h3⟩
  · rw [h1, h2]; exact .inl ⟨rfl, d', rfl⟩
  · rw [h1, h2]; exact hf x d' h3

theorem sameRead_skip {γ : Type} (n : Nat) {f : DevRead γ} {g : Bytes → Option (γ × Bytes)} (hf : sameRead f g) :
    sameRead ((devSkip n).andThen fun _ => f) (fun s => (skipBytes n s).bind g) := by
  intro d hd
  unfold DevRead.andThen devSkip
  beta_reduce
  obtain ⟨h1, h2, h3⟩ := c128_skip_bytes n d hd
  rcases hs : d.skipBytes n with ⟨_ | u, d'⟩
  · rw [hs] at h1
    rcases hb : skipBytes n d.content with _ | _
    · exact .inl ⟨rfl, d', rfl⟩
    · rw [hb] at h1; cases h1
  · rw [hs] at h1 h2 h3
    rcases hb : skipBytes n d.content with _ | r
    · rw [hb] at h1; cases h1
    · have := h3 r hb
      simp only at this h2
      subst this
      exact hf d' h2

theorem sameRead_pure {β : Type} (x : β) : sameRead (fun d => (some x, d)) (fun s => some (x, s)) :=
  fun d hd => .inr ⟨x, d, rfl, rfl, hd⟩

theorem sameRead_vertexType (e : Endian) (t : VertexType) : sameRead (devReadVertexType e t) (readVertexType e t) := by
  intro d hd
  cases t
  · unfold devReadVertexType readVertexType readF32
    rcases readExact_cases d hd 4 with ⟨h1, d', h2⟩ | ⟨b, d', h1, h2, h3, -⟩
    · rw [h1, h2]; exact .inl ⟨rfl, d', rfl⟩
    · rw [h1, h2]; exact .inr ⟨_, d', rfl, rfl, h3⟩
  · unfold devReadVertexType readVertexType readF64
    rcases readExact_cases d hd 8 with ⟨h1, d', h2⟩ | ⟨b, d', h1, h2, h3, -⟩
    · rw [h1, h2]; exact .inl ⟨rfl, d', rfl⟩
    · rw [h1, h2]; exact .inr ⟨_, d', rfl, rfl, h3⟩

theorem sameRead_faceType (e : Endian) (t : FaceType) : sameRead (devReadFaceType e t) (readFaceType e t) := by
  intro d hd
  unfold devReadFaceType readFaceType readNat readInt
  cases t <;>
  · simp only [FaceType.width]
    first
    | (rcases readExact_cases d hd 1 with ⟨h1, d', h2⟩ | ⟨b, d', h1, h2, h3, -⟩ <;> rw [h1, h2] <;>
        first | exact .inl ⟨rfl, d', rfl⟩ | exact .inr ⟨_, d', rfl, rfl, h3⟩)
    | (rcases readExact_cases d hd 2 with ⟨h1, d', h2⟩ | ⟨b, d', h1, h2, h3, -⟩ <;> rw [h1, h2] <;>
        first | exact .inl ⟨rfl, d', rfl⟩ | exact .inr ⟨_, d', rfl, rfl, h3⟩)
    | (rcases readExact_cases d hd 4 with ⟨h1, d', h2⟩ | ⟨b, d', h1, h2, h3, -⟩ <;> rw [h1, h2] <;>
        first | exact .inl ⟨rfl, d', rfl⟩ | exact .inr ⟨_, d', rfl, rfl, h3⟩)

theorem sameRead_vertex (e : Endian) (h : PlyVertexData) : sameRead (devPlyBinaryVertex e h) (plyBinaryVertex e h) :=
  sameRead_skip _ (sameRead_andThen (sameRead_vertexType e h.first) fun _ => sameRead_skip _ (sameRead_andThen (sameRead_vertexType e h.snd) fun _ =>
    sameRead_skip _ (sameRead_andThen (sameRead_vertexType e h.third) fun _ => sameRead_skip _ (sameRead_pure _))))

theorem sameFace (e : Endian) (h : PlyFaceData) (d : Device) (hd : Proper d) :
    (∃ r d', plyBinaryFace e h d.content = (.error .AccessFile, r) ∧ devPlyBinaryFace e h d = (none, d')) ∨
    (∃ x r d', plyBinaryFace e h d.content = (.error x, r) ∧ devPlyBinaryFace e h d = (some (.error x), d')) ∨
    ∃ f d', plyBinaryFace e h d.content = (.ok f, d'.content) ∧ devPlyBinaryFace e h d = (some (.ok f), d') ∧ Proper d' := by
  have h1 : sameRead ((devSkip h.before.bytes).andThen fun _ => devReadFaceType e h.countType)
      (fun s => do let s ← skipBytes h.before.bytes s; readFaceType e h.countType s) := sameRead_skip _ (sameRead_faceType e _)
  have h2 : sameRead ((devReadFaceType e h.indexType).andThen fun a => (devReadFaceType e h.indexType).andThen fun b =>
      (devReadFaceType e h.indexType).andThen fun c => (devSkip h.after.bytes).andThen fun _ => fun d => (some (a, b, c), d))
      (fun s => do
        let (a, s) ← readFaceType e h.indexType s
        let (b, s) ← readFaceType e h.indexType s
        let (c, s) ← readFaceType e h.indexType s
        let s ← skipBytes h.after.bytes s
        return ((a, b, c), s)) :=
    sameRead_andThen (sameRead_faceType e _) fun _ => sameRead_andThen (sameRead_faceType e _) fun _ =>
      sameRead_andThen (sameRead_faceType e _) fun _ => sameRead_skip _ (sameRead_pure _)
  have split1 : devPlyBinaryFace e h d = ((((devSkip h.before.bytes).andThen fun _ => devReadFaceType e h.countType)).andThen fun n =>
      if n ≠ 3 then fun d => (some (.error .FaceStructure), d)
      else ((devReadFaceType e h.indexType).andThen fun a => (devReadFaceType e h.indexType).andThen fun b =>
        (devReadFaceType e h.indexType).andThen fun c => (devSkip h.after.bytes).andThen fun _ => fun d => (some (a, b, c), d)).andThen
          fun f => fun d => (some (.ok f), d)) d := by
    unfold devPlyBinaryFace DevRead.andThen
    simp only
    rcases devSkip h.before.bytes d with ⟨_ | _, d1⟩
    · rfl
    · simp only
      rcases devReadFaceType e h.countType d1 with ⟨_ | n, d2⟩
      · rfl
      · simp only
        by_cases hn : n ≠ 3
        · rw [if_pos hn, if_pos hn]
        · rw [if_neg hn, if_neg hn]
          rcases devReadFaceType e h.indexType d2 with ⟨_ | a, d3⟩
          · rfl
          · simp only
            rcases devReadFaceType e h.indexType d3 with ⟨_ | b, d4⟩
            · rfl
            · simp only
              rcases devReadFaceType e h.indexType d4 with ⟨_ | c, d5⟩
              · rfl
              · simp only
                rcases devSkip h.after.bytes d5 with ⟨_ | _, d6⟩ <;> rfl
  rw [split1]
  unfold plyBinaryFace
  rw [DevRead.andThen]
  rcases h1 d hd with ⟨e1, d1, e2⟩ | ⟨n, d1, e1, e2, e3⟩
  · beta_reduce at e1
    rw [e1, e2]
    exact .inl ⟨_, _, rfl, rfl⟩
  · beta_reduce at e1
    rw [e1, e2]
    simp only
    by_cases hn : n ≠ 3
    · rw [if_pos hn, if_pos hn]
      exact .inr (.inl ⟨_, _, _, rfl, rfl⟩)
    · rw [if_neg hn, if_neg hn, DevRead.andThen]
      rcases h2 d1 e3 with ⟨q1, d2, q2⟩ | ⟨f, d2, q1, q2, q3⟩
      · beta_reduce at q1
        rw [q1, q2]
        exact .inl ⟨_, _, rfl, rfl⟩
      · beta_reduce at q1
        rw [q1, q2]
        exact .inr (.inr ⟨_, _, rfl, rfl, q3⟩)

/-! ### the iterators -/

/-- what the iterators get of a reader: text in lines, binary data in bytes -/
def relPly : PlyFormat → Device → Bytes → Prop
  | .Ascii, d, t => sees d t
  | .Binary _, d, t => Proper d ∧ d.content = t

/-- the iterators over a reader and over bytes are at the same place -/
def samePly (format : PlyFormat) (s : DevPly) (t : PlyCursor) : Prop :=
  s.isDone = t.isDone ∧ s.current = t.current ∧ s.iLine = t.iLine ∧ relPly format s.read t.read

/-- the next results are the same, and unless it is an error the iterators are at the same place again -/
def StepPly {β σ τ : Type} (R : σ → τ → Prop) (a : Option (Except (LineInfo PlyError) β) × σ) (b : Option (Except (LineInfo PlyError) β) × τ) : Prop :=
  ∃ o s t, a = (o, s) ∧ b = (o, t) ∧ ((∀ e, o ≠ some (.error e)) → R s t)

theorem samePly_points (T : FloatText F64) (format : PlyFormat) (h : PlyVertexData) (s : DevPly) (t : PlyCursor) (hs : samePly format s t) :
    StepPly (samePly format) (devPlyPointsInner T format h s) (plyPointsInner T format h t) := by
  obtain ⟨sr, sd, sc, si⟩ := s
  obtain ⟨tr, td, tc, ti⟩ := t
  obtain ⟨h1, h2, h3, h4⟩ := hs
  simp only at h1 h2 h3 h4
  subst h1 h2 h3
  rcases format with _ | e
  · unfold devPlyPointsInner plyPointsInner
    simp only
    unfold devPlyAsciiPointsNext plyAsciiPointsNext
    simp only
    have hend : ∀ d x c, sees d x → StepPly (samePly .Ascii) (devPlyAsciiPointsEnd h ⟨d, sd, c, si⟩) (plyAsciiPointsEnd h ⟨x, sd, c, si⟩) := by
      intro d x c hx
      unfold devPlyAsciiPointsEnd plyAsciiPointsEnd
      simp only
      by_cases hc : c ≠ h.count
      · rw [if_pos hc, if_pos hc]
        exact ⟨_, _, _, rfl, rfl, fun q => absurd rfl (q _)⟩
      · rw [if_neg hc, if_neg hc]
        exact ⟨_, _, _, rfl, rfl, fun _ => ⟨rfl, rfl, rfl, hx⟩⟩
    by_cases hd : sd = true
    · rw [if_pos hd, if_pos hd]
      exact ⟨_, _, _, rfl, rfl, fun _ => ⟨rfl, rfl, rfl, h4⟩⟩
    · rw [if_neg hd, if_neg hd]
      by_cases hc : sc < h.count
      · rw [if_pos hc, if_pos hc]
        rcases sees_fetch h4 with ⟨q1, d', q2, q3⟩ | ⟨l, rest, d', q1, q2, q3⟩
        · rw [q1, q2]
          exact hend d' tr (sc + 1) q3
        · rw [q1, q2]
          simp only
          rcases plyAsciiVertex T h l with x | p
          · exact ⟨_, _, _, rfl, rfl, fun q => absurd rfl (q _)⟩
          · exact ⟨_, _, _, rfl, rfl, fun _ => ⟨rfl, rfl, rfl, q3⟩⟩
      · rw [if_neg hc, if_neg hc]
        exact hend sr tr sc h4
  · obtain ⟨hp, rfl⟩ := h4
    unfold devPlyPointsInner plyPointsInner
    simp only
    unfold devPlyBinaryPointsNext plyBinaryPointsNext
    simp only
    by_cases hd : sd = true
    · rw [if_pos hd, if_pos hd]
      exact ⟨_, _, _, rfl, rfl, fun _ => ⟨rfl, rfl, rfl, hp, rfl⟩⟩
    · rw [if_neg hd, if_neg hd]
      by_cases hc : sc < h.count
      · rw [if_pos hc, if_pos hc]
        rcases sameRead_vertex e h sr hp with ⟨q1, d', q2⟩ | ⟨x, d', q1, q2, q3⟩
        · rw [q1, q2]
          exact ⟨_, _, _, rfl, rfl, fun q => absurd rfl (q _)⟩
        · rw [q1, q2]
          refine ⟨_, _, _, rfl, rfl, fun _ => ⟨?_, rfl, rfl, q3, rfl⟩⟩
          simpa using hd
      · rw [if_neg hc, if_neg hc]
        exact ⟨_, _, _, rfl, rfl, fun _ => ⟨rfl, rfl, rfl, hp, rfl⟩⟩

theorem samePly_faces (format : PlyFormat) (h : PlyFaceData) (s : DevPly) (t : PlyCursor) (hs : samePly format s t) :
    StepPly (samePly format) (devPlyFacesInner format h s) (plyFacesInner format h t) := by
  obtain ⟨sr, sd, sc, si⟩ := s
  obtain ⟨tr, td, tc, ti⟩ := t
  obtain ⟨h1, h2, h3, h4⟩ := hs
  simp only at h1 h2 h3 h4
  subst h1 h2 h3
  rcases format with _ | e
  · unfold devPlyFacesInner plyFacesInner
    simp only
    unfold devPlyAsciiFacesNext plyAsciiFacesNext
    simp only
    by_cases hd : sd = true
    · rw [if_pos hd, if_pos hd]
      exact ⟨_, _, _, rfl, rfl, fun _ => ⟨rfl, rfl, rfl, h4⟩⟩
    · rw [if_neg hd, if_neg hd]
      by_cases hc : sc < h.count
      · rw [if_pos hc, if_pos hc]
        rcases sees_fetch h4 with ⟨q1, d', q2, q3⟩ | ⟨l, rest, d', q1, q2, q3⟩
        · rw [q1, q2]
          exact ⟨_, _, _, rfl, rfl, fun _ => ⟨rfl, rfl, rfl, q3⟩⟩
        · rw [q1, q2]
          simp only
          rcases plyIndexLine l with _ | p
          · exact ⟨_, _, _, rfl, rfl, fun q => absurd rfl (q _)⟩
          · exact ⟨_, _, _, rfl, rfl, fun _ => ⟨rfl, rfl, rfl, q3⟩⟩
      · rw [if_neg hc, if_neg hc]
        exact ⟨_, _, _, rfl, rfl, fun _ => ⟨rfl, rfl, rfl, h4⟩⟩
  · obtain ⟨hp, rfl⟩ := h4
    unfold devPlyFacesInner plyFacesInner
    simp only
    unfold devPlyBinaryFacesNext plyBinaryFacesNext
    simp only
    by_cases hd : sd = true
    · rw [if_pos hd, if_pos hd]
      exact ⟨_, _, _, rfl, rfl, fun _ => ⟨rfl, rfl, rfl, hp, rfl⟩⟩
    · rw [if_neg hd, if_neg hd]
      by_cases hc : sc < h.count
      · rw [if_pos hc, if_pos hc]
        rcases sameFace e h sr hp with ⟨r, d', q1, q2⟩ | ⟨x, r, d', q1, q2⟩ | ⟨f, d', q1, q2, q3⟩
        · rw [q1, q2]
          exact ⟨_, _, _, rfl, rfl, fun q => absurd rfl (q _)⟩
        · rw [q1, q2]
          exact ⟨_, _, _, rfl, rfl, fun q => absurd rfl (q _)⟩
        · rw [q1, q2]
          refine ⟨_, _, _, rfl, rfl, fun _ => ⟨?_, rfl, rfl, q3, rfl⟩⟩
          simpa using hd
      · rw [if_neg hc, if_neg hc]
        exact ⟨_, _, _, rfl, rfl, fun _ => ⟨rfl, rfl, rfl, hp, rfl⟩⟩

/-- the same for both parts of a mesh -/
def samePlyMesh (format : PlyFormat) : DevPlyMesh → PlyMeshCursor → Prop
  | .points s, .points t => samePly format s t
  | .faces s, .faces t => samePly format s t
  | _, _ => False

theorem samePly_meshFaces (format : PlyFormat) (h : PlyFaceData) (s : DevPly) (t : PlyCursor) (hs : samePly format s t) :
    StepPly (samePlyMesh format) (devPlyMeshFaces format h s) (plyMeshFaces format h t) := by
  unfold devPlyMeshFaces plyMeshFaces
  obtain ⟨o, s', t', h1, h2, h3⟩ := samePly_faces format h s t hs
  rw [h1, h2]
  rcases o with _ | e | ⟨a, b, c⟩
  · exact ⟨_, _, _, rfl, rfl, fun _ => h3 (by simp)⟩
  · exact ⟨_, _, _, rfl, rfl, fun q => absurd rfl (q _)⟩
  · exact ⟨_, _, _, rfl, rfl, fun _ => h3 (by simp)⟩

theorem samePly_mesh (T : FloatText F64) (format : PlyFormat) (hv : PlyVertexData) (hf : PlyFaceData) (s : DevPlyMesh) (t : PlyMeshCursor)
    (hs : samePlyMesh format s t) : StepPly (samePlyMesh format) (devPlyMeshInner T format hv hf s) (plyMeshInner T format hv hf t) := by
  rcases s with s | s <;> rcases t with t | t
  · unfold devPlyMeshInner plyMeshInner
    simp only
    obtain ⟨o, s', t', h1, h2, h3⟩ := samePly_points T format hv s t hs
    rw [h1, h2]
    rcases o with _ | e | p
    · obtain ⟨-, -, h6, h7⟩ := h3 (by simp)
      exact samePly_meshFaces format hf _ _ ⟨rfl, rfl, h6, h7⟩
    · exact ⟨_, _, _, rfl, rfl, fun q => absurd rfl (q _)⟩
    · exact ⟨_, _, _, rfl, rfl, fun _ => h3 (by simp)⟩
  · exact hs.elim
  · exact hs.elim
  · exact samePly_meshFaces format hf s t hs

/-! ### the loops behind the header -/

theorem plyEither_mesh (T : FloatText F64) (format : PlyFormat) (hv : PlyVertexData) (hf : PlyFaceData) (n : Nat) (m : TMesh PlyPoint) {d : Device}
    {rest : Bytes} (i : Nat) (h : relPly format d rest) :
    forEach (fun s => some (devPlyMeshInner T format hv hf s)) plyPush n (.points ⟨d, false, 0, i⟩) m =
      forEach (fun s => some (plyMeshInner T format hv hf s)) plyPush n (.points ⟨rest, false, 0, i⟩) m := by
  refine forEach_simOk (samePlyMesh format) (fun s t hs => ?_) n _ _ m ⟨rfl, rfl, rfl, h⟩
  obtain ⟨o, s', t', h1, h2, h3⟩ := samePly_mesh T format hv hf s t hs
  exact ⟨o, s', t', by rw [h1], by rw [h2], by rintro ⟨x, rfl⟩; exact h3 (by simp)⟩

theorem plyEither_points (T : FloatText F64) (format : PlyFormat) (hv : PlyVertexData) (n : Nat) (ip : List PlyPoint) {d : Device}
    {rest : Bytes} (i : Nat) (h : relPly format d rest) :
    forEach (fun s => let r := devPlyPointsInner T format hv s; some (plyData r.1, r.2)) pushItem n ⟨d, false, 0, i⟩ ip =
      forEach (fun s => let r := plyPointsInner T format hv s; some (plyData r.1, r.2)) pushItem n ⟨rest, false, 0, i⟩ ip := by
  refine forEach_simOk (samePly format) (fun s t hs => ?_) n _ _ ip ⟨rfl, rfl, rfl, h⟩
  obtain ⟨o, s', t', h1, h2, h3⟩ := samePly_points T format hv s t hs
  refine ⟨plyData o, s', t', by simp only [h1], by simp only [h2], ?_⟩
  rintro ⟨x, hx⟩
  rcases o with _ | e | p
  · cases hx
  · cases hx
  · exact h3 (by simp)

theorem plyMesh_loop (T : FloatText F64) (format : PlyFormat) (hv : PlyVertexData) (hf : PlyFaceData) (n : Nat) (m : TMesh PlyPoint) {d : Device}
    {rest : Bytes} (i : Nat) (r : Option (Nat × Nat)) (h : relPly format d rest) :
    forEach (fun s => some (devPlyMeshNext T s)) plyPush n ⟨format, hv, hf, .points ⟨d, false, 0, i⟩, r⟩ m =
      forEach (fun s => some (plyMeshNext T s)) plyPush n ⟨format, hv, hf, .points ⟨rest, false, 0, i⟩, r⟩ m := by
  refine forEach_simOk (fun (s : DevPlyMeshIter) (t : PlyMeshIter) => s.format = format ∧ t.format = format ∧ s.vertex = t.vertex ∧ s.face = t.face ∧
    s.toReserve = t.toReserve ∧ samePlyMesh format s.inner t.inner) ?_ n _ _ m ⟨rfl, rfl, rfl, rfl, rfl, rfl, rfl, rfl, h⟩
  rintro ⟨_, v, f, s, r⟩ ⟨_, _, _, t, _⟩ ⟨rfl, h2, rfl, rfl, rfl, h3⟩
  simp only at h2 h3
  subst h2
  unfold devPlyMeshNext plyMeshNext
  rcases r with _ | ⟨a, b⟩
  · obtain ⟨o, s', t', h1, h2, h3⟩ := samePly_mesh T _ v f s t h3
    simp only [h1, h2]
    exact ⟨o, _, _, rfl, rfl, by rintro ⟨x, rfl⟩; exact ⟨rfl, rfl, rfl, rfl, rfl, h3 (by simp)⟩⟩
  · exact ⟨_, _, _, rfl, rfl, fun _ => ⟨rfl, rfl, rfl, rfl, rfl, h3⟩⟩

theorem plyPoints_loop (T : FloatText F64) (format : PlyFormat) (hv : PlyVertexData) (n : Nat) (ip : List PlyPoint) {d : Device}
    {rest : Bytes} (i : Nat) (r : Option Nat) (h : relPly format d rest) :
    forEach (fun s => some (devPlyPointsNext T s)) pushItem n ⟨format, hv, ⟨d, false, 0, i⟩, r⟩ ip =
      forEach (fun s => some (plyPointsNext T s)) pushItem n ⟨format, hv, ⟨rest, false, 0, i⟩, r⟩ ip := by
  refine forEach_simOk (fun (s : DevPlyPointsIter) (t : PlyPointsIter) => s.format = format ∧ t.format = format ∧ s.vertex = t.vertex ∧
    s.toReserve = t.toReserve ∧ samePly format s.inner t.inner) ?_ n _ _ ip ⟨rfl, rfl, rfl, rfl, rfl, rfl, rfl, h⟩
  rintro ⟨_, v, s, r⟩ ⟨_, _, t, _⟩ ⟨rfl, h2, rfl, rfl, h3⟩
  simp only at h2 h3
  subst h2
  unfold devPlyPointsNext plyPointsNext
  rcases r with _ | a
  · obtain ⟨o, s', t', h1, h2, h3⟩ := samePly_points T _ v s t h3
    simp only [h1, h2]
    refine ⟨plyData o, _, _, rfl, rfl, ?_⟩
    rintro ⟨x, hx⟩
    rcases o with _ | e | p
    · cases hx
    · cases hx
    · exact ⟨rfl, rfl, rfl, rfl, h3 (by simp)⟩
  · exact ⟨_, _, _, rfl, rfl, fun _ => ⟨rfl, rfl, rfl, rfl, h3⟩⟩

/-- the three loaders do what they do for `read`, if the header is the same and what is behind it corresponds -/
theorem ply_after (T : FloatText F64) (d : Device) (read : Bytes) (m : TMesh PlyPoint) (ip : List PlyPoint) (hlen : read.length ≤ d.content.length)
    (hh : (∃ e, plyLoadHeader read = some (.error e) ∧ devPlyLoadHeader d = some (.error e)) ∨ ∃ h rest d' j,
      plyLoadHeader read = some (.ok (h, rest, j)) ∧ devPlyLoadHeader d = some (.ok (h, d', j)) ∧ relPly h.format d' rest) :
    (∀ x, loadPlyMesh T read m = some x → d.loadPlyMesh T m = some x) ∧ (∀ x, loadPlyPoints T read ip = some x → d.loadPlyPoints T ip = some x) ∧
    (∀ x, loadPlyEither T read m ip = some x → d.loadPlyEither T m ip = some x) ∧
    (read.length = d.content.length → d.loadPlyMesh T m = loadPlyMesh T read m ∧ d.loadPlyPoints T ip = loadPlyPoints T read ip ∧
      d.loadPlyEither T m ip = loadPlyEither T read m ip) := by
  obtain ⟨k, hk⟩ := Nat.exists_eq_add_of_le hlen
  have hk3 : d.content.length + 3 = (read.length + 3) + k := by omega
  unfold Device.loadPlyMesh Device.loadPlyPoints Device.loadPlyEither loadPlyMesh loadPlyPoints loadPlyEither PlyMeshIter.new PlyPointsIter.new
  rcases hh with ⟨e, h1, h2⟩ | ⟨h, rest, d', j, h1, h2, h3⟩
  · rw [h1, h2]
    exact ⟨fun _ h => h, fun _ h => h, fun _ h => h, fun _ => ⟨rfl, rfl, rfl⟩⟩
  · rw [h1, h2]
    simp only
    rw [plyPoints_loop T h.format h.vertex (d.content.length + 3) ip j _ h3, hk3]
    rcases hf : h.face with _ | f
    · simp only
      rw [plyEither_points T h.format h.vertex (read.length + 3 + k) ip j h3]
      refine ⟨fun _ h => h, fun x hx => forEach_fuel k _ _ _ _ hx, fun x hx => ?_, fun hl => ?_⟩
      · rcases hq : forEach (fun s => let r := plyPointsInner T h.format h.vertex s; some (plyData r.1, r.2)) pushItem (read.length + 3)
          ⟨rest, false, 0, j⟩ ip with _ | y
        · simp only at hq
          rw [hq] at hx; cases hx
        · have := forEach_fuel k _ _ _ _ hq
          simp only at hq this
          rw [hq] at hx
          rw [this]
          exact hx
      · obtain rfl : k = 0 := by omega
        exact ⟨trivial, rfl, rfl⟩
    · simp only
      rw [plyEither_mesh T h.format h.vertex f (read.length + 3 + k) m j h3, plyMesh_loop T h.format h.vertex f (read.length + 3 + k) m j _ h3]
      refine ⟨fun x hx => forEach_fuel k _ _ _ _ hx, fun x hx => forEach_fuel k _ _ _ _ hx, fun x hx => ?_, fun hl => ?_⟩
      · rcases hq : forEach (fun s => some (plyMeshInner T h.format h.vertex f s)) plyPush (read.length + 3)
          (.points ⟨rest, false, 0, j⟩) m with _ | y
        · rw [hq] at hx; cases hx
        · have := forEach_fuel k _ _ _ _ hq
          rw [hq] at hx
          rw [this]
          exact hx
      · obtain rfl : k = 0 := by omega
        exact ⟨rfl, rfl, rfl⟩

/-! ### theorems -/

/-- **C128** .ply files of all formats from a reader that does not fail: the portions and interruptions do not matter -/
theorem c128_ply (T : FloatText F64) (d : Device) (hd : Proper d) (hf : d.fails = false) (m : TMesh PlyPoint) (ip : List PlyPoint) :
    d.loadPlyMesh T m = loadPlyMesh T d.content m ∧ d.loadPlyPoints T ip = loadPlyPoints T d.content ip ∧
    d.loadPlyEither T m ip = loadPlyEither T d.content m ip := by
  have hs : sees d d.content := ⟨hd, by unfold seen; rw [if_neg (by simp [hf])]⟩
  rcases hh : plyLoadHeader d.content with _ | x
  · have := plyHeader_none _ _ _ _ _ hs hh
    have h2 : devPlyLoadHeader d = none := this
    unfold Device.loadPlyMesh Device.loadPlyPoints Device.loadPlyEither loadPlyMesh loadPlyPoints loadPlyEither PlyMeshIter.new PlyPointsIter.new
    rw [hh, h2]
    exact ⟨rfl, rfl, rfl⟩
  · refine (ply_after T d d.content m ip le_rfl ?_).2.2.2 rfl
    rcases plyHeader_sim _ _ _ _ _ _ _ hs le_rfl hh with ⟨e, rfl, h2⟩ | ⟨h, rest, d', j, rfl, h2, h3, h4⟩
    · exact .inl ⟨e, hh, h2⟩
    · refine .inr ⟨h, rest, d', j, hh, h2, ?_⟩
      rcases h.format with _ | e
      · exact h3
      · refine ⟨h3.1, ?_⟩
        have := h3.2
        unfold seen at this
        rwa [if_neg (by simp [h4, hf])] at this

theorem seen_length (d : Device) : (seen d).length ≤ d.content.length := by
  unfold seen
  split
  · exact wholeLines_length _
  · exact le_rfl

/-- **C128** text: of a reader that fails the loaders do what they do for the lines handed over completely -/
theorem c128_ply_text (T : FloatText F64) (d : Device) (hd : Proper d) (m : TMesh PlyPoint) (ip : List PlyPoint)
    (ht : ∀ h rest i, plyLoadHeader (seen d) = some (.ok (h, rest, i)) → h.format = .Ascii) :
    (∀ x, loadPlyMesh T (seen d) m = some x → d.loadPlyMesh T m = some x) ∧ (∀ x, loadPlyPoints T (seen d) ip = some x → d.loadPlyPoints T ip = some x) ∧
    ∀ x, loadPlyEither T (seen d) m ip = some x → d.loadPlyEither T m ip = some x := by
  rcases hh : plyLoadHeader (seen d) with _ | x
  · unfold loadPlyMesh loadPlyPoints loadPlyEither PlyMeshIter.new PlyPointsIter.new
    rw [hh]
    exact ⟨fun _ h => (by cases h), fun _ h => (by cases h), fun _ h => (by cases h)⟩
  · have hl := seen_length d
    have := ply_after T d (seen d) m ip hl ?_
    · exact ⟨this.1, this.2.1, this.2.2.1⟩
    rcases plyHeader_sim _ (d.content.length + 1) _ _ _ _ _ ⟨hd, rfl⟩ (by omega) hh with ⟨e, rfl, h2⟩ | ⟨h, rest, d', j, rfl, h2, h3, -⟩
    · exact .inl ⟨e, hh, h2⟩
    · refine .inr ⟨h, rest, d', j, hh, h2, ?_⟩
      rw [ht _ _ _ hh]
      exact h3

/-- **C128** binary data: a reader that fails anywhere behind the header is like a file that ends there -/
theorem c128_ply_binary (T : FloatText F64) (d : Device) (hd : Proper d) (m : TMesh PlyPoint) (ip : List PlyPoint) (h : PlyHeader) (rest : Bytes)
    (i : Nat) (hh : plyLoadHeader d.content = some (.ok (h, rest, i))) (hr : rest ≠ []) (hb : h.format ≠ .Ascii) :
    d.loadPlyMesh T m = loadPlyMesh T d.content m ∧ d.loadPlyPoints T ip = loadPlyPoints T d.content ip ∧
    d.loadPlyEither T m ip = loadPlyEither T d.content m ip := by
  refine (ply_after T d d.content m ip le_rfl ?_).2.2.2 rfl
  obtain ⟨d', h1, h2, h3⟩ := plyHeader_whole _ _ _ _ _ _ _ hd hh hr
  refine .inr ⟨h, rest, d', i, hh, h1, ?_⟩
  rcases hf : h.format with _ | e
  · exact absurd hf hb
  · exact ⟨h2, h3⟩

/-- **C128 violated** for .ply files in ASCII: a reader that fails behind a line break, or anywhere in the line that follows, is
taken for a file that ends there: whatever is returned for the bytes before, `Ok` included, is returned -/
theorem c128_violated_ply (T : FloatText F64) (file rest : Bytes) (hr : (10 : UInt8) ∉ rest) (hfile : ∃ t, file = t ++ [10]) (d : Device)
    (hd : Proper d) (hc : d.content = file ++ rest) (hf : d.fails = true) (h : PlyHeader) (body : Bytes) (i : Nat)
    (hh : plyLoadHeader file = some (.ok (h, body, i))) (ha : h.format = .Ascii) (m m' : TMesh PlyPoint) (hm : loadPlyMesh T file m = some (m', .ok ())) :
    d.loadPlyMesh T m = some (m', .ok ()) := by
  have e : seen d = file := by
    unfold seen
    rw [if_pos hf, hc, wholeLines_unique hr (.inr hfile)]
  refine (c128_ply_text T d hd m [] ?_).1 _ (by rw [e]; exact hm)
  intro h' b' i' q
  rw [e, hh] at q
  simp only [Option.some.injEq, Except.ok.injEq, Prod.mk.injEq] at q
  rw [← q.1]
  exact ha

/-! ### examples -/

/-- a header for three vertices and two faces -/
def devPlyHead (format : Bytes) : Bytes := b!"ply\nformat " ++ format ++ b!" 1.0\nelement vertex 3\nproperty float x\nproperty float y\nproperty float z\nelement face 2\nproperty list uchar int vertex_indices\nend_header\n"

/-- one of two faces, then the reader fails: one face, no error -/
example : let d : Device := ⟨[.data (devPlyHead b!"ascii" ++ b!"1 0 0\n0 1"), .interrupted, .data b!" 0\n0 0 1\n3 0 1 2\n3 0"], true⟩
    Proper d ∧ (∃ h body i, plyLoadHeader (seen d) = some (.ok (h, body, i)) ∧ h.format = .Ascii) ∧
    ∃ m, d.loadPlyMesh natF64 ⟨[], []⟩ = some (m, .ok ()) ∧ m.faces = [⟨0, 1, 2⟩] := by
  refine ⟨by unfold Proper; decide +kernel, ?_, ?_⟩
  · have : ((plyLoadHeader (seen ⟨[.data (devPlyHead b!"ascii" ++ b!"1 0 0\n0 1"), .interrupted, .data b!" 0\n0 0 1\n3 0 1 2\n3 0"], true⟩)).map
        fun x => x.toOption.map fun y => y.1.format) = some (some .Ascii) := by decide +kernel
    rcases e : plyLoadHeader (seen ⟨[.data (devPlyHead b!"ascii" ++ b!"1 0 0\n0 1"), .interrupted, .data b!" 0\n0 0 1\n3 0 1 2\n3 0"], true⟩) with _ | _ | ⟨h, body, i⟩
    · rw [e] at this; cases this
    · rw [e] at this; cases this
    · rw [e] at this
      exact ⟨h, body, i, rfl, Option.some.inj (Option.some.inj this)⟩
  · exact ⟨⟨[⟨F64.ofRat 1, F64.ofRat 0, F64.ofRat 0⟩, ⟨F64.ofRat 0, F64.ofRat 1, F64.ofRat 0⟩, ⟨F64.ofRat 0, F64.ofRat 0, F64.ofRat 1⟩], [⟨0, 1, 2⟩]⟩, by decide +kernel, rfl⟩

/-- the same break in binary data is reported -/
example : let d : Device := ⟨[.data (devPlyHead b!"binary_little_endian"), .data (List.replicate 20 0), .interrupted, .data (List.replicate 16 0 ++ [3, 0, 0])], true⟩
    Proper d ∧ (∃ h body i, plyLoadHeader d.content = some (.ok (h, body, i)) ∧ body ≠ [] ∧ h.format ≠ .Ascii) ∧
    ∃ m, d.loadPlyMesh natF64 ⟨[], []⟩ = some (m, .error (.none .AccessFile)) ∧ m.verts.length = 3 := by
  refine ⟨by unfold Proper; decide +kernel, ?_, ?_⟩
  · have : ((plyLoadHeader (Device.content ⟨[.data (devPlyHead b!"binary_little_endian"), .data (List.replicate 20 0), .interrupted, .data (List.replicate 16 0 ++ [3, 0, 0])], true⟩)).map
        fun x => x.toOption.map fun y => (decide (y.1.format = .Ascii), y.2.1.length)) = some (some (false, 39)) := by decide +kernel
    rcases e : plyLoadHeader (Device.content ⟨[.data (devPlyHead b!"binary_little_endian"), .data (List.replicate 20 0), .interrupted, .data (List.replicate 16 0 ++ [3, 0, 0])], true⟩) with _ | _ | ⟨h, body, i⟩
    · rw [e] at this; cases this
    · rw [e] at this; cases this
    · rw [e] at this
      have := Option.some.inj (Option.some.inj this)
      simp only [Prod.mk.injEq, decide_eq_false_iff_not] at this
      exact ⟨h, body, i, rfl, by rintro rfl; exact absurd this.2 (by decide), this.1⟩
  · exact ⟨⟨List.replicate 3 ⟨F64.ofRat 0, F64.ofRat 0, F64.ofRat 0⟩, []⟩, by decide +kernel, rfl⟩

end R3D

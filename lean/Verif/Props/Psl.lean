import Verif.Model.Psl
import Verif.Props.StlFile
/-!
C68: .psl files.
-/
namespace R3D
open Spec

/-! ### files as the format demands -/

/-- a scan line: a header with the direction and the points -/
structure Spec.PslLine where
  ijk : Bytes
  reserved : Bytes
  points : List (Point3D F64)

/-- a pass of the scanner -/
structure Spec.PslPass where
  scanner : Bytes
  reserved : Bytes
  lines : List PslLine

/-- a file -/
structure Spec.PslFile where
  magic : Bytes
  version : Bytes
  comments : Bytes
  flag : Bytes
  reserved : Bytes
  passes : List PslPass

/-- the bytes of a line: the number of points first -/
def Spec.PslLine.bytes (l : Spec.PslLine) : Bytes :=
  bytesOfNat .little 4 l.points.length ++ (l.ijk ++ (l.reserved ++ l.points.flatMap point32Bytes))

/-- the bytes of a pass: the number of lines first -/
def Spec.PslPass.bytes (p : Spec.PslPass) : Bytes :=
  bytesOfNat .little 4 p.lines.length ++ (p.scanner ++ (p.reserved ++ p.lines.flatMap PslLine.bytes))

/-- the header of a file with `n` passes -/
def Spec.PslFile.header (x : Spec.PslFile) (rest : Bytes) : Bytes :=
  x.magic ++ (x.version ++ (x.comments ++ (bytesOfNat .little 4 x.passes.length ++ (x.flag ++ (x.reserved ++ rest)))))

/-- the bytes of a file -/
def Spec.PslFile.bytes (x : Spec.PslFile) : Bytes := x.header (x.passes.flatMap PslPass.bytes)

/-- sizes of the fields; the counts are positive `i32` -/
def Spec.PslLine.Wf (l : Spec.PslLine) : Prop := l.ijk.length = 12 ∧ l.reserved.length = 48 ∧ l.points.length < 2 ^ 31

/-- sizes of the fields -/
def Spec.PslPass.Wf (p : Spec.PslPass) : Prop :=
  p.scanner.length = 4 ∧ p.reserved.length = 56 ∧ p.lines.length < 2 ^ 31 ∧ ∀ l ∈ p.lines, l.Wf

/-- sizes of the fields -/
def Spec.PslFile.Wf (x : Spec.PslFile) : Prop :=
  x.magic.length = 4 ∧ x.version.length = 4 ∧ x.comments.length = 128 ∧ x.flag.length = 4 ∧ x.reserved.length = 368 ∧
    x.passes.length < 2 ^ 31 ∧ ∀ p ∈ x.passes, p.Wf

/-- all points, rounded to `f32` -/
def Spec.PslFile.points (x : Spec.PslFile) : List (Point3D F64) :=
  x.passes.flatMap fun p => p.lines.flatMap fun l => l.points.map round32

/-- the first point of the first line of the first pass -/
def Spec.PslFile.first (x : Spec.PslFile) : List (Point3D F64) :=
  match x.passes with
  | [] => []
  | p :: _ =>
    match p.lines with
    | [] => []
    | l :: _ => (l.points.map round32).take 1

/-! ### reading the headers -/

theorem readInt_of {e : Endian} {bs : Bytes} (rest : Bytes) {w : Nat} (h : bs.length = w) :
    readInt e w (bs ++ rest) = some (intOfBytes e bs, rest) := by
  subst h
  simp only [readInt, readExact_append]

theorem readExact_of {bs : Bytes} (rest : Bytes) {w : Nat} (h : bs.length = w) : readExact w (bs ++ rest) = some (bs, rest) := by
  subst h
  exact readExact_append _ _

theorem readInt_count {n : Nat} (rest : Bytes) (h : n < 2 ^ 31) :
    readInt .little 4 (bytesOfNat .little 4 n ++ rest) = some ((n : Int), rest) := by
  rw [readInt_of rest (bytesOfNat_length _ _ _), intOfBytes, bytesOfNat_length, natOfBytes_bytesOfNat _ (by norm_num; omega),
    if_pos (by norm_num; omega)]

theorem pslHeader_of (x : PslFile) (hx : x.Wf) (rest : Bytes) : pslHeader (x.header rest) = some ((x.passes.length : Int), rest) := by
  obtain ⟨h1, h2, h3, h4, h5, h6, -⟩ := hx
  simp only [pslHeader, PslFile.header, readExact_of _ h1, readInt_of _ h2, readExact_of _ h3, readInt_count _ h6, readInt_of _ h4,
    readExact_of _ h5, Option.bind_eq_bind, Option.bind_some]
  rfl

theorem pslPassHeader_of (p : PslPass) (hp : p.Wf) (rest : Bytes) :
    pslPassHeader (bytesOfNat .little 4 p.lines.length ++ (p.scanner ++ (p.reserved ++ rest))) = some ((p.lines.length : Int), rest) := by
  obtain ⟨h1, h2, h3, -⟩ := hp
  simp only [pslPassHeader, readInt_count _ h3, readInt_of _ h1, readExact_of _ h2, Option.bind_eq_bind, Option.bind_some]
  rfl

theorem pslLineHeader_of (l : PslLine) (hl : l.Wf) (rest : Bytes) :
    pslLineHeader (bytesOfNat .little 4 l.points.length ++ (l.ijk ++ (l.reserved ++ rest))) = some ((l.points.length : Int), rest) := by
  obtain ⟨h1, h2, h3⟩ := hl
  simp only [pslLineHeader, readInt_count _ h3, readExact_of _ h1, readExact_of _ h2, Option.bind_eq_bind, Option.bind_some]
  rfl

theorem pslPoint_of (p : Point3D F64) (rest : Bytes) : pslPoint (point32Bytes p ++ rest) = some (round32 p, rest) := by
  have key : ∀ (x : F64) rest, readF32 .little (F64.toBytes32 .little x ++ rest) = some (x.toF32, rest) :=
    fun x rest => (c71_f32 .little).1 x rest
  simp only [pslPoint, point32Bytes, List.append_assoc, key, Option.bind_eq_bind, Option.bind_some]
  rfl

/-! ### the number of points loaded -/

theorem pslNextPoint_ends {s : PslIter} (h : s.nLinesLeft ≠ 0 ∨ s.nPointLeft ≠ 0) :
    ((pslNextPoint s).1 = none ∧ (pslNextPoint s).2.isDone = true) ∨ (pslNextPoint s).1 = some (.error .AccessFile) := by
  have key : pslFetchCounts s = none ∨ ∃ s', pslFetchCounts s = some s' ∧ s'.nPointLeft = 0 := by
    by_cases hl : s.nLinesLeft = 0
    · have hp : s.nPointLeft ≠ 0 := h.resolve_left (by simpa using hl)
      have hq : ∀ t : PslIter, t.nPointLeft = s.nPointLeft → pslFetchPoints t = some { t with nPointLeft := 0 } := by
        intro t ht
        simp [pslFetchPoints, ht, hp]
      by_cases hpass : s.nPassesLeft > 0
      · cases hh : pslPassHeader s.read with
        | none => left; simp [pslFetchCounts, pslFetchLines, hl, hpass, hh]
        | some r =>
          right
          refine ⟨{ s with read := r.2, nLinesLeft := r.1, nPointLeft := 0 }, ?_, rfl⟩
          simp only [pslFetchCounts, pslFetchLines, hl, hpass, hh]
          exact hq _ rfl
      · right
        refine ⟨{ s with nLinesLeft := 0, nPointLeft := 0 }, ?_, rfl⟩
        simp only [pslFetchCounts, pslFetchLines, hl, hpass]
        exact hq _ rfl
    · right
      refine ⟨{ s with nLinesLeft := 0, nPointLeft := 0 }, ?_, rfl⟩
      simp [pslFetchCounts, pslFetchLines, pslFetchPoints, hl]
  rcases key with h | ⟨s', h, h0⟩
  · right; simp [pslNextPoint, h]
  · left; simp [pslNextPoint, h, h0]

/-- an iterator at the start of a pass gives one point at most, and then has a count left it does not know how to handle -/
theorem pslNextPoint_once {s s' : PslIter} {p : Point3D F64} (h : pslNextPoint s = (some (.ok p), s')) :
    s'.nLinesLeft ≠ 0 ∨ s'.nPointLeft ≠ 0 := by
  unfold pslNextPoint at h
  cases hc : pslFetchCounts s with
  | none => rw [hc] at h; simp at h
  | some s2 =>
    rw [hc] at h
    have hl : s2.nPointLeft ≠ 0 → 0 < s2.nLinesLeft := by
      intro h0
      unfold pslFetchCounts at hc
      cases h1 : pslFetchLines s with
      | none => rw [h1] at hc; simp at hc
      | some s1 =>
        rw [h1] at hc
        simp only [Option.bind_eq_bind, Option.bind_some, pslFetchPoints] at hc
        by_cases hh : (s1.nPointLeft == 0 && decide (s1.nLinesLeft > 0)) = true
        · rw [if_pos hh] at hc
          simp only [Bool.and_eq_true, decide_eq_true_eq] at hh
          cases h3 : pslLineHeader s1.read with
          | none => rw [h3] at hc; simp at hc
          | some r => rw [h3] at hc; simp at hc; rw [← hc]; exact hh.2
        · rw [if_neg hh] at hc
          simp at hc
          rw [← hc] at h0
          exact absurd rfl h0
    by_cases h0 : s2.nPointLeft = 0
    · simp [h0] at h
    · have hl := hl h0
      have h0' : ¬(s2.nPointLeft == 0) = true := by simpa using h0
      dsimp only at h
      rw [if_neg h0'] at h
      cases hp : pslPoint (pslReduceCount s2).read with
      | none => rw [hp] at h; simp at h
      | some r =>
        rw [hp] at h
        simp only [Prod.mk.injEq] at h
        rw [← h.2]
        by_cases hpos : s2.nPointLeft > 0
        · left
          simp only [pslReduceCount, if_pos hpos]
          omega
        · right
          simp only [pslReduceCount, if_neg hpos, if_pos (show s2.nLinesLeft > 0 from hl)]
          exact h0

theorem pslNextPoint_flags (s : PslIter) (hi : s.isInitialized = true) (hd : s.isDone = false) {p : Point3D F64} {s' : PslIter}
    (h : pslNextPoint s = (some (.ok p), s')) : pslNext s' = pslNextPoint s' := by
  have hf : ∀ {t t' : PslIter}, pslFetchCounts t = some t' → t'.isInitialized = t.isInitialized ∧ t'.isDone = t.isDone := by
    intro t t' h
    unfold pslFetchCounts at h
    cases h1 : pslFetchLines t with
    | none => rw [h1] at h; simp at h
    | some t1 =>
      rw [h1] at h
      simp only [Option.bind_eq_bind, Option.bind_some] at h
      have e1 : t1.isInitialized = t.isInitialized ∧ t1.isDone = t.isDone := by
        unfold pslFetchLines at h1
        split at h1
        · cases h3 : pslPassHeader t.read with
          | none => rw [h3] at h1; simp at h1
          | some r => rw [h3] at h1; simp at h1; rw [← h1]; exact ⟨rfl, rfl⟩
        · simp at h1; rw [← h1]; exact ⟨rfl, rfl⟩
      unfold pslFetchPoints at h
      split at h
      · cases h3 : pslLineHeader t1.read with
        | none => rw [h3] at h; simp at h
        | some r => rw [h3] at h; simp at h; rw [← h]; exact e1
      · simp at h; rw [← h]; exact e1
  unfold pslNextPoint at h
  cases hc : pslFetchCounts s with
  | none => rw [hc] at h; simp at h
  | some s2 =>
    rw [hc] at h
    obtain ⟨e1, e2⟩ := hf hc
    by_cases h0 : (s2.nPointLeft == 0) = true
    · simp [h0] at h
    · dsimp only at h
      rw [if_neg h0] at h
      have e3 : (pslReduceCount s2).isInitialized = s2.isInitialized ∧ (pslReduceCount s2).isDone = s2.isDone := by
        unfold pslReduceCount
        split_ifs <;> exact ⟨rfl, rfl⟩
      cases hp : pslPoint (pslReduceCount s2).read with
      | none => rw [hp] at h; simp at h
      | some r =>
        rw [hp] at h
        simp only [Prod.mk.injEq] at h
        rw [← h.2]
        simp [pslNext, e3, e1, e2, hi, hd]

/-- the state after the header -/
def pslStart (n : Int) (rest : Bytes) : PslIter := ⟨rest, false, true, n, 0, 0⟩

theorem pslNext_new (input : Bytes) :
    (pslHeader input = none ∧ (pslNext (PslIter.new input)).1 = some (.error .AccessFile)) ∨
    ∃ n rest, pslHeader input = some (n, rest) ∧ pslNext (PslIter.new input) = pslNextPoint (pslStart n rest) := by
  cases h : pslHeader input with
  | none => left; simp [pslNext, PslIter.new, pslInitialize, h]
  | some r =>
    right
    refine ⟨r.1, r.2, rfl, ?_⟩
    simp [pslNext, PslIter.new, pslInitialize, h, pslStart]

theorem drain_none {σ ε α : Type} {next : σ → Option (Except ε α) × σ} {s : σ} (n : Nat) (h : (next s).1 = none) :
    drain next (n + 1) s = some ([], .ok ()) := by
  obtain ⟨a, s', hn⟩ : ∃ a s', next s = (a, s') := ⟨_, _, rfl⟩
  rw [hn] at h
  simp only at h
  subst h
  simp [drain, hn]

theorem drain_error {σ ε α : Type} {next : σ → Option (Except ε α) × σ} {s : σ} {e : ε} (n : Nat) (h : (next s).1 = some (.error e)) :
    drain next (n + 1) s = some ([], .error e) := by
  obtain ⟨a, s', hn⟩ : ∃ a s', next s = (a, s') := ⟨_, _, rfl⟩
  rw [hn] at h
  simp only at h
  subst h
  simp [drain, hn]

theorem drain_ok {σ ε α : Type} {next : σ → Option (Except ε α) × σ} {s s' : σ} {x : α} (n : Nat) (h : next s = (some (.ok x), s')) :
    drain next (n + 1) s = (drain next n s').map fun r => (x :: r.1, r.2) := by
  simp [drain, h]

theorem readInt_length {e : Endian} {w : Nat} {s s' : Bytes} {i : Int} (h : readInt e w s = some (i, s')) : s.length = w + s'.length := by
  unfold readInt at h
  cases hr : readExact w s with
  | none => rw [hr] at h; simp at h
  | some r =>
    rw [hr] at h
    obtain ⟨bs, t⟩ := r
    simp only [Option.some.injEq, Prod.mk.injEq] at h
    obtain ⟨rfl, hl⟩ := readExact_some.1 hr
    rw [List.length_append, hl, h.2]

theorem readF32_length {e : Endian} {s s' : Bytes} {x : F64} (h : readF32 e s = some (x, s')) : s.length = 4 + s'.length := by
  unfold readF32 at h
  cases hr : readExact 4 s with
  | none => rw [hr] at h; simp at h
  | some r =>
    rw [hr] at h
    obtain ⟨bs, t⟩ := r
    simp only [Option.some.injEq, Prod.mk.injEq] at h
    obtain ⟨rfl, hl⟩ := readExact_some.1 hr
    rw [List.length_append, hl, h.2]

theorem readExact_length {w : Nat} {s s' bs : Bytes} (h : readExact w s = some (bs, s')) : s.length = w + s'.length := by
  obtain ⟨rfl, hl⟩ := readExact_some.1 h
  rw [List.length_append, hl]

theorem pslHeader_length {input rest : Bytes} {n : Int} (h : pslHeader input = some (n, rest)) : 512 ≤ input.length := by
  unfold pslHeader at h
  simp only [Option.bind_eq_bind, Option.bind_eq_some_iff, Prod.exists] at h
  obtain ⟨a, s1, h1, b, s2, h2, c, s3, h3, d, s4, h4, e, s5, h5, g, s6, h6, -⟩ := h
  have e1 := readExact_length h1
  have e2 := readInt_length h2
  have e3 := readExact_length h3
  have e4 := readInt_length h4
  have e5 := readInt_length h5
  have e6 := readExact_length h6
  omega

theorem pslPassHeader_none {s : Bytes} (h : s.length < 64) : pslPassHeader s = none := by
  rw [Option.eq_none_iff_forall_ne_some]
  intro r hr
  unfold pslPassHeader at hr
  simp only [Option.bind_eq_bind, Option.bind_eq_some_iff, Prod.exists] at hr
  obtain ⟨a, s1, h1, b, s2, h2, c, s3, h3, -⟩ := hr
  have e1 := readInt_length h1
  have e2 := readInt_length h2
  have e3 := readExact_length h3
  omega

theorem pslLineHeader_none {s : Bytes} (h : s.length < 64) : pslLineHeader s = none := by
  rw [Option.eq_none_iff_forall_ne_some]
  intro r hr
  unfold pslLineHeader at hr
  simp only [Option.bind_eq_bind, Option.bind_eq_some_iff, Prod.exists] at hr
  obtain ⟨a, s1, h1, b, s2, h2, c, s3, h3, -⟩ := hr
  have e1 := readInt_length h1
  have e2 := readExact_length h2
  have e3 := readExact_length h3
  omega

theorem pslPoint_none {s : Bytes} (h : s.length < 12) : pslPoint s = none := by
  rw [Option.eq_none_iff_forall_ne_some]
  intro r hr
  unfold pslPoint at hr
  simp only [Option.bind_eq_bind, Option.bind_eq_some_iff, Prod.exists] at hr
  obtain ⟨a, s1, h1, b, s2, h2, c, s3, h3, -⟩ := hr
  have e1 := readF32_length h1
  have e2 := readF32_length h2
  have e3 := readF32_length h3
  omega

/-- C68 is violated: whatever the file is, one point is loaded at most. -/
theorem c68_violated (input : Bytes) : ∃ ps r, loadPsl input = some (ps, r) ∧ ps.length ≤ 1 := by
  unfold loadPsl
  rcases pslNext_new input with ⟨-, h⟩ | ⟨n, rest, hh, h⟩
  · exact ⟨_, _, drain_error _ h, by simp⟩
  · rcases h1 : pslNextPoint (pslStart n rest) with ⟨a, s'⟩
    rw [h1] at h
    match a with
    | none => exact ⟨_, _, drain_none _ (by rw [h]), by simp⟩
    | some (.error e) => exact ⟨_, _, drain_error _ (by rw [h]), by simp⟩
    | some (.ok p) =>
      have hn := pslNextPoint_flags (pslStart n rest) rfl rfl h1
      obtain ⟨k, hk⟩ : ∃ k, input.length = k + 1 := ⟨input.length - 1, by have := pslHeader_length hh; omega⟩
      rw [hk, drain_ok _ h]
      rcases pslNextPoint_ends (pslNextPoint_once h1) with ⟨h2, -⟩ | h2
      · rw [drain_none _ (by rw [hn]; exact h2)]
        exact ⟨_, _, rfl, by simp⟩
      · rw [drain_error _ (by rw [hn]; exact h2)]
        exact ⟨_, _, rfl, by simp⟩

/-- **C68**, what is loaded from a file as the format demands, whatever follows it: the first point of the first line of the first
pass, and nothing if there is none. No error is reported. -/
theorem c68_first (x : PslFile) (hx : x.Wf) (extra : Bytes) : loadPsl (x.bytes ++ extra) = some (x.first, .ok ()) := by
  have hb : x.bytes ++ extra = x.header (x.passes.flatMap PslPass.bytes ++ extra) := by
    simp only [PslFile.bytes, PslFile.header, List.append_assoc]
  have hh := pslHeader_of x hx (x.passes.flatMap PslPass.bytes ++ extra)
  unfold loadPsl
  rw [hb]
  obtain ⟨n, rest, h1, h⟩ := (pslNext_new (x.header (x.passes.flatMap PslPass.bytes ++ extra))).resolve_left (by rw [hh]; simp)
  rw [hh] at h1
  simp only [Option.some.injEq, Prod.mk.injEq] at h1
  obtain ⟨rfl, rfl⟩ := h1
  have hlen := pslHeader_length hh
  obtain ⟨k, hk⟩ : ∃ k, (x.header (x.passes.flatMap PslPass.bytes ++ extra)).length = k + 1 :=
    ⟨(x.header (x.passes.flatMap PslPass.bytes ++ extra)).length - 1, by omega⟩
  rw [hk]
  clear hk hlen hh hb
  generalize x.header (x.passes.flatMap PslPass.bytes ++ extra) = input at h ⊢
  match hp : x.passes with
  | [] =>
    rw [hp] at h
    rw [drain_none _ (by rw [h]; rfl)]
    simp [PslFile.first, hp]
  | p :: ps =>
    have hpw : p.Wf := hx.2.2.2.2.2.2 p (by simp [hp])
    have e1 : (x.passes.flatMap PslPass.bytes ++ extra) =
        bytesOfNat .little 4 p.lines.length ++ (p.scanner ++ (p.reserved ++ (p.lines.flatMap PslLine.bytes ++ (ps.flatMap PslPass.bytes ++ extra)))) := by
      simp [hp, PslPass.bytes]
    have hpos : (0 : Int) < (x.passes.length : Int) := by simp [hp]
    have h2 := pslPassHeader_of p hpw (p.lines.flatMap PslLine.bytes ++ (ps.flatMap PslPass.bytes ++ extra))
    have hlines : pslFetchLines (pslStart x.passes.length (x.passes.flatMap PslPass.bytes ++ extra)) =
        some { pslStart x.passes.length (p.lines.flatMap PslLine.bytes ++ (ps.flatMap PslPass.bytes ++ extra)) with
          nLinesLeft := p.lines.length } := by
      rw [e1]
      simp only [pslFetchLines, pslStart, hpos, h2]
      rfl
    match hl : p.lines with
    | [] =>
      rw [drain_none]
      · simp [PslFile.first, hp, hl]
      · rw [h]
        simp only [pslNextPoint, pslFetchCounts, hlines, hl]
        rfl
    | l :: ls =>
      have hlw : l.Wf := hpw.2.2.2 l (by simp [hl])
      have e2 : p.lines.flatMap PslLine.bytes ++ (ps.flatMap PslPass.bytes ++ extra) =
          bytesOfNat .little 4 l.points.length ++ (l.ijk ++ (l.reserved ++ (l.points.flatMap point32Bytes ++
            (ls.flatMap PslLine.bytes ++ (ps.flatMap PslPass.bytes ++ extra))))) := by
        simp [hl, PslLine.bytes]
      have hpos2 : (0 : Int) < (p.lines.length : Int) := by simp [hl]
      have h3 := pslLineHeader_of l hlw (l.points.flatMap point32Bytes ++ (ls.flatMap PslLine.bytes ++ (ps.flatMap PslPass.bytes ++ extra)))
      have hcounts : pslFetchCounts (pslStart x.passes.length (x.passes.flatMap PslPass.bytes ++ extra)) =
          some ⟨l.points.flatMap point32Bytes ++ (ls.flatMap PslLine.bytes ++ (ps.flatMap PslPass.bytes ++ extra)), false, true,
            x.passes.length, p.lines.length, l.points.length⟩ := by
        simp only [pslFetchCounts, hlines]
        rw [e2]
        simp only [Option.bind_eq_bind, Option.bind_some, pslFetchPoints, pslStart, hpos2, h3]
        rfl
      match hq : l.points with
      | [] =>
        rw [drain_none]
        · simp [PslFile.first, hp, hl, hq]
        · rw [h]
          simp only [pslNextPoint, hcounts, hq]
          rfl
      | q :: qs =>
        have h4 := pslPoint_of q (qs.flatMap point32Bytes ++ (ls.flatMap PslLine.bytes ++ (ps.flatMap PslPass.bytes ++ extra)))
        rw [← List.append_assoc, ← List.flatMap_cons] at h4
        have hnext : pslNextPoint (pslStart x.passes.length (x.passes.flatMap PslPass.bytes ++ extra)) =
            (some (.ok (round32 q)), ⟨qs.flatMap point32Bytes ++ (ls.flatMap PslLine.bytes ++ (ps.flatMap PslPass.bytes ++ extra)), false, true,
              x.passes.length, p.lines.length, (qs.length : Int)⟩) := by
          have hc : ((q :: qs).length : Int) = qs.length + 1 := by simp
          have n0 : ¬((qs.length : Int) + 1 == 0) = true := by simp; omega
          simp only [pslNextPoint, hcounts, hq, hc]
          rw [if_neg n0]
          simp only [pslReduceCount, if_pos (show (qs.length : Int) + 1 > 0 by omega), h4]
          congr 2
          omega
        rw [hnext] at h
        rw [drain_ok _ h, drain_none]
        · simp [PslFile.first, hp, hl, hq]
        · have hne : p.lines ≠ [] := by simp [hl]
          simp [pslNext, pslNextPoint, pslFetchCounts, pslFetchLines, pslFetchPoints, hne]

/-- **C68**, what does hold: a file the only point of which is the first of the first line of the first pass is loaded entirely.
Missing: all other files (see `c68_violated`, `c68_all_iff`). -/
theorem c68_partial (x : PslFile) (hx : x.Wf) (extra : Bytes) (h : x.points = x.first) :
    loadPsl (x.bytes ++ extra) = some (x.points, .ok ()) := by
  rw [h, c68_first x hx extra]

/-- these are the files that are loaded entirely; a file with two points never is -/
theorem c68_all_iff (x : PslFile) (hx : x.Wf) (extra : Bytes) :
    (loadPsl (x.bytes ++ extra) = some (x.points, .ok ()) ↔ x.points = x.first) ∧
      (2 ≤ x.points.length → loadPsl (x.bytes ++ extra) ≠ some (x.points, .ok ())) := by
  refine ⟨?_, ?_⟩
  · rw [c68_first x hx extra]
    simp [eq_comm]
  · intro h2 h
    obtain ⟨ps, r, h1, hl⟩ := c68_violated (x.bytes ++ extra)
    rw [h] at h1
    simp only [Option.some.injEq, Prod.mk.injEq] at h1
    rw [h1.1] at h2
    omega

theorem take_append_cases (a b : Bytes) (k : Nat) :
    (k < a.length ∧ (a ++ b).take k = a.take k) ∨ (a.length ≤ k ∧ (a ++ b).take k = a ++ b.take (k - a.length)) := by
  by_cases h : k < a.length
  · exact .inl ⟨h, List.take_append_of_le_length (by omega)⟩
  · exact .inr ⟨by omega, by rw [List.take_append, List.take_of_length_le (by omega)]⟩

theorem pslFetchLines_start {n m : Int} {rest rest' : Bytes} (h : pslPassHeader rest = some (m, rest')) (hn : 0 < n) :
    pslFetchLines (pslStart n rest) = some ⟨rest', false, true, n, m, 0⟩ := by
  simp only [pslFetchLines, pslStart, hn, h]
  rfl

theorem pslFetchPoints_start {n m : Int} {rest : Bytes} (hm : 0 < m) :
    pslFetchPoints ⟨rest, false, true, n, m, 0⟩ = (pslLineHeader rest).map fun r => ⟨r.2, false, true, n, m, r.1⟩ := by
  simp only [pslFetchPoints, hm]
  cases pslLineHeader rest <;> rfl

/-- **C68**: in a file that has a first point, a truncation before its end is reported. -/
theorem c68_truncated (x : PslFile) (hx : x.Wf) (h : x.first ≠ []) (k : Nat) (hk : k < 512 + 64 + 64 + 12) :
    loadPsl (x.bytes.take k) = some ([], .error .AccessFile) := by
  obtain ⟨h1, h2, h3, h4, h5, h6, h7⟩ := id hx
  match hp : x.passes with
  | [] => simp [PslFile.first, hp] at h
  | p :: ps =>
    match hl : p.lines with
    | [] => simp [PslFile.first, hp, hl] at h
    | l :: ls =>
      match hq : l.points with
      | [] => simp [PslFile.first, hp, hl, hq] at h
      | q :: qs =>
        have hpw : p.Wf := h7 p (by simp [hp])
        have hlw : l.Wf := hpw.2.2.2 l (by simp [hl])
        rcases pslNext_new (x.bytes.take k) with ⟨-, hn⟩ | ⟨n, rest, hh, hn⟩
        · exact drain_error _ hn
        refine drain_error _ ?_
        rw [hn]
        have hlen := pslHeader_length hh
        have hhead : ∀ r, x.header r = x.header [] ++ r := by simp [PslFile.header]
        have hl0 : (x.header []).length = 512 := by simp [PslFile.header, h1, h2, h3, h4, h5, bytesOfNat_length]
        have hc : ((x.passes.flatMap PslPass.bytes)) = bytesOfNat .little 4 p.lines.length ++ (p.scanner ++ (p.reserved ++
            (bytesOfNat .little 4 l.points.length ++ (l.ijk ++ (l.reserved ++ (point32Bytes q ++ (qs.flatMap point32Bytes ++
            (ls.flatMap PslLine.bytes ++ ps.flatMap PslPass.bytes)))))))) := by
          simp [hp, PslPass.bytes, hl, PslLine.bytes, hq]
        rw [PslFile.bytes, hhead, hc] at hh hlen
        rcases take_append_cases (x.header []) _ k with ⟨hk1, e⟩ | ⟨hk1, e⟩
        · rw [e, List.length_take] at hlen
          omega
        rw [e, ← hhead, pslHeader_of x hx] at hh
        simp only [Option.some.injEq, Prod.mk.injEq] at hh
        obtain ⟨rfl, hrest⟩ := hh
        have hpos : (0 : Int) < (x.passes.length : Int) := by simp [hp]
        by_cases hk2 : k < 576
        · have : pslPassHeader rest = none := pslPassHeader_none (by rw [← hrest, List.length_take]; omega)
          simp only [pslNextPoint, pslFetchCounts, pslFetchLines, pslStart, hpos, this]
          rfl
        have e2 : rest = bytesOfNat .little 4 p.lines.length ++ (p.scanner ++ (p.reserved ++
            (bytesOfNat .little 4 l.points.length ++ (l.ijk ++ (l.reserved ++ (point32Bytes q ++ (qs.flatMap point32Bytes ++
            (ls.flatMap PslLine.bytes ++ ps.flatMap PslPass.bytes)))))).take (k - 576))) := by
          rw [← hrest, hl0, List.take_append, bytesOfNat_length, List.take_of_length_le (by rw [bytesOfNat_length]; omega), List.take_append,
            hpw.1, List.take_of_length_le (by rw [hpw.1]; omega), List.take_append, hpw.2.1, List.take_of_length_le (by rw [hpw.2.1]; omega), show k - 512 - 4 - 4 - 56 = k - 576 by omega]
        have hph := pslPassHeader_of p hpw
        rw [e2]
        generalize hr3 : (bytesOfNat .little 4 l.points.length ++ (l.ijk ++ (l.reserved ++ (point32Bytes q ++ (qs.flatMap point32Bytes ++
            (ls.flatMap PslLine.bytes ++ ps.flatMap PslPass.bytes)))))).take (k - 576) = rest3
        have hpos2 : (0 : Int) < (p.lines.length : Int) := by simp [hl]
        by_cases hk3 : k < 640
        · have : pslLineHeader rest3 = none := pslLineHeader_none (by rw [← hr3, List.length_take]; omega)
          simp only [pslNextPoint, pslFetchCounts, pslFetchLines_start (hph _) hpos, Option.bind_eq_bind, Option.bind_some,
            pslFetchPoints_start hpos2, this]
          rfl
        have e3 : rest3 = bytesOfNat .little 4 l.points.length ++ (l.ijk ++ (l.reserved ++ (point32Bytes q ++ (qs.flatMap point32Bytes ++
            (ls.flatMap PslLine.bytes ++ ps.flatMap PslPass.bytes))).take (k - 640))) := by
          rw [← hr3, List.take_append, bytesOfNat_length, List.take_of_length_le (by rw [bytesOfNat_length]; omega), List.take_append,
            hlw.1, List.take_of_length_le (by rw [hlw.1]; omega), List.take_append, hlw.2.1, List.take_of_length_le (by rw [hlw.2.1]; omega), show k - 576 - 4 - 12 - 48 = k - 640 by omega]
        have hlh := pslLineHeader_of l hlw
        have hpt : ∀ r, pslPoint ((point32Bytes q ++ r).take (k - 640)) = none := fun r =>
          pslPoint_none (by rw [List.length_take]; omega)
        have hpos3 : (0 : Int) < (l.points.length : Int) := by simp [hq]
        rw [e3]
        have hne : ¬((l.points.length : Int) == 0) = true := by
          rw [beq_iff_eq]
          omega
        simp only [pslNextPoint, pslFetchCounts, pslFetchLines_start (hph _) hpos, Option.bind_eq_bind, Option.bind_some,
          pslFetchPoints_start hpos2, hlh, Option.map_some]
        rw [if_neg hne]
        simp only [pslReduceCount, if_pos (show (l.points.length : Int) > 0 from hpos3), hpt]

/-! #### examples -/

/-- two lines in the first pass -/
def examplePsl : PslFile :=
  ⟨List.replicate 4 0, List.replicate 4 0, List.replicate 128 0, List.replicate 4 0, List.replicate 368 0,
    [⟨List.replicate 4 0, List.replicate 56 0,
      [⟨List.replicate 12 0, List.replicate 48 0, [⟨f 1, f 2, f 3⟩]⟩, ⟨List.replicate 12 0, List.replicate 48 0, [⟨f 4, f 5, f 6⟩]⟩]⟩]⟩

example : examplePsl.Wf := by
  refine ⟨List.length_replicate, List.length_replicate, List.length_replicate, List.length_replicate, List.length_replicate, by decide, ?_⟩
  intro p hp
  simp only [examplePsl, List.mem_singleton] at hp
  subst hp
  refine ⟨by decide, by decide, by decide, ?_⟩
  intro l hl
  simp only [List.mem_cons, List.not_mem_nil, or_false] at hl
  rcases hl with rfl | rfl <;> exact ⟨by decide, by decide, by decide⟩

/-- the second point is lost -/
example : examplePsl.points = [⟨f 1, f 2, f 3⟩, ⟨f 4, f 5, f 6⟩] ∧ examplePsl.bytes.length = 512 + 64 + 64 + 12 + 64 + 12 ∧
    loadPsl examplePsl.bytes = some ([⟨f 1, f 2, f 3⟩], .ok ()) := by decide +kernel

/-- a file with one point is loaded -/
example : ∃ x : PslFile, x = { examplePsl with passes := [⟨List.replicate 4 0, List.replicate 56 0,
    [⟨List.replicate 12 0, List.replicate 48 0, [⟨f 1, f 2, f 3⟩]⟩]⟩] } ∧ x.points = x.first ∧ x.points.length = 1 :=
  ⟨_, rfl, rfl, rfl⟩

end R3D

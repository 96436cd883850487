import Verif.Props.Psl
/-!
C68: what loading any bytes as a .psl file does.
-/
namespace R3D
open Spec

/-! ### specification -/

/-- the `i32` at a position -/
def Spec.i32At (s : Bytes) (k : Nat) : Int := intOfBytes .little ((s.drop k).take 4)

/-- the `f32` at a position -/
def Spec.f32At (s : Bytes) (k : Nat) : F64 := F64.ofBytes32 .little ((s.drop k).take 4)

/-- Points and result for bytes as they are: the header takes 512 bytes with the number of passes at 136, the header of the first
pass 64 with the number of lines first, the header of its first line 64 with the number of points first. -/
inductive Spec.PslLoads (s : Bytes) : List (Point3D F64) → Except PslError Unit → Prop
  | header : s.length < 512 → PslLoads s [] (.error .AccessFile)
  | noPass : 512 ≤ s.length → i32At s 136 ≤ 0 → PslLoads s [] (.ok ())
  | pass : 512 ≤ s.length → 0 < i32At s 136 → s.length < 576 → PslLoads s [] (.error .AccessFile)
  | noLine : 576 ≤ s.length → 0 < i32At s 136 → i32At s 512 ≤ 0 → PslLoads s [] (.ok ())
  | line : 576 ≤ s.length → 0 < i32At s 136 → 0 < i32At s 512 → s.length < 640 → PslLoads s [] (.error .AccessFile)
  | noPoint : 640 ≤ s.length → 0 < i32At s 136 → 0 < i32At s 512 → i32At s 576 = 0 → PslLoads s [] (.ok ())
  | point : 640 ≤ s.length → 0 < i32At s 136 → 0 < i32At s 512 → i32At s 576 ≠ 0 → s.length < 652 → PslLoads s [] (.error .AccessFile)
  /-- a negative number of points in the only line: the header of the next pass is looked for -/
  | next : 652 ≤ s.length → 0 < i32At s 136 → i32At s 512 = 1 → i32At s 576 < 0 → s.length < 716 →
      PslLoads s [⟨f32At s 640, f32At s 644, f32At s 648⟩] (.error .AccessFile)
  | one : 652 ≤ s.length → 0 < i32At s 136 → 0 < i32At s 512 → i32At s 576 ≠ 0 → (i32At s 512 = 1 → i32At s 576 < 0 → 716 ≤ s.length) →
      PslLoads s [⟨f32At s 640, f32At s 644, f32At s 648⟩] (.ok ())

/-! ### proofs -/

theorem readExact_at (n : Nat) (s : Bytes) (k : Nat) (h : k + n ≤ s.length) : readExact n (s.drop k) = some ((s.drop k).take n, s.drop (k + n)) := by
  rw [readExact, if_pos (by rw [List.length_drop]; omega), List.drop_drop]

theorem readInt_at (s : Bytes) (k : Nat) (h : k + 4 ≤ s.length) : readInt .little 4 (s.drop k) = some (i32At s k, s.drop (k + 4)) := by
  rw [readInt, readExact_at _ _ _ h]; rfl

theorem readF32_at (s : Bytes) (k : Nat) (h : k + 4 ≤ s.length) : readF32 .little (s.drop k) = some (f32At s k, s.drop (k + 4)) := by
  rw [readF32, readExact_at _ _ _ h]; rfl

theorem pslHeader_at (s : Bytes) : pslHeader s = if 512 ≤ s.length then some (i32At s 136, s.drop 512) else none := by
  split_ifs with h
  · have e := readExact_at 4 s 0 (by omega)
    rw [List.drop_zero] at e
    simp only [pslHeader, e, Option.bind_eq_bind, Option.bind_some, Nat.zero_add, Nat.reduceAdd, readInt_at s 4 (by omega), readExact_at 128 s 8 (by omega),
      readInt_at s 136 (by omega), readInt_at s 140 (by omega), readExact_at 368 s 144 (by omega)]
    rfl
  · cases hh : pslHeader s with
    | none => rfl
    | some r => exact absurd (pslHeader_length (rest := r.2) (n := r.1) hh) h

theorem pslPassHeader_at (s : Bytes) (k : Nat) : pslPassHeader (s.drop k) = if k + 64 ≤ s.length then some (i32At s k, s.drop (k + 64)) else none := by
  split_ifs with h
  · simp only [pslPassHeader, Option.bind_eq_bind, Option.bind_some, readInt_at s k (by omega), readInt_at s (k + 4) (by omega), readExact_at 56 s (k + 4 + 4) (by omega)]
    rfl
  · exact pslPassHeader_none (by rw [List.length_drop]; omega)

theorem pslLineHeader_at (s : Bytes) (k : Nat) : pslLineHeader (s.drop k) = if k + 64 ≤ s.length then some (i32At s k, s.drop (k + 64)) else none := by
  split_ifs with h
  · simp only [pslLineHeader, Option.bind_eq_bind, Option.bind_some, readInt_at s k (by omega), readExact_at 12 s (k + 4) (by omega), readExact_at 48 s (k + 4 + 12) (by omega)]
    rfl
  · exact pslLineHeader_none (by rw [List.length_drop]; omega)

theorem pslPoint_at (s : Bytes) (k : Nat) :
    pslPoint (s.drop k) = if k + 12 ≤ s.length then some (⟨f32At s k, f32At s (k + 4), f32At s (k + 8)⟩, s.drop (k + 12)) else none := by
  split_ifs with h
  · simp only [pslPoint, Option.bind_eq_bind, Option.bind_some, readF32_at s k (by omega), readF32_at s (k + 4) (by omega), readF32_at s (k + 4 + 4) (by omega)]
    rfl
  · exact pslPoint_none (by rw [List.length_drop]; omega)

/-- **C68**: what any bytes load as; and all bytes are covered. -/
theorem c68_exact (input : Bytes) :
    (∃ ps r, PslLoads input ps r) ∧ ∀ ps r, PslLoads input ps r → loadPsl input = some (ps, r) := by
  constructor
  · by_cases h1 : input.length < 512
    · exact ⟨_, _, .header h1⟩
    by_cases h2 : i32At input 136 ≤ 0
    · exact ⟨_, _, .noPass (by omega) h2⟩
    by_cases h3 : input.length < 576
    · exact ⟨_, _, .pass (by omega) (by omega) h3⟩
    by_cases h4 : i32At input 512 ≤ 0
    · exact ⟨_, _, .noLine (by omega) (by omega) h4⟩
    by_cases h5 : input.length < 640
    · exact ⟨_, _, .line (by omega) (by omega) (by omega) h5⟩
    by_cases h6 : i32At input 576 = 0
    · exact ⟨_, _, .noPoint (by omega) (by omega) (by omega) h6⟩
    by_cases h7 : input.length < 652
    · exact ⟨_, _, .point (by omega) (by omega) (by omega) h6 h7⟩
    by_cases h8 : i32At input 512 = 1 → i32At input 576 < 0 → 716 ≤ input.length
    · exact ⟨_, _, .one (by omega) (by omega) (by omega) h6 h8⟩
    · push Not at h8
      exact ⟨_, _, .next (by omega) (by omega) h8.1 h8.2.1 h8.2.2⟩
  · intro ps r h
    have start : ∀ (hl : 512 ≤ input.length), pslNext (PslIter.new input) = pslNextPoint (pslStart (i32At input 136) (input.drop 512)) := by
      intro hl
      rcases pslNext_new input with ⟨h, -⟩ | ⟨n, rest, h, h'⟩
      · rw [pslHeader_at, if_pos hl] at h; simp at h
      · rw [pslHeader_at, if_pos hl] at h
        simp only [Option.some.injEq, Prod.mk.injEq] at h
        rw [h', ← h.1, ← h.2]
    have lines : ∀ (hl : 576 ≤ input.length) (h1 : 0 < i32At input 136), pslFetchLines (pslStart (i32At input 136) (input.drop 512)) =
        some ⟨input.drop 576, false, true, i32At input 136, i32At input 512, 0⟩ := fun hl h1 =>
      pslFetchLines_start (by rw [pslPassHeader_at, if_pos (by omega)]) h1
    have counts : ∀ (hl : 640 ≤ input.length) (h1 : 0 < i32At input 136) (h2 : 0 < i32At input 512),
        pslFetchCounts (pslStart (i32At input 136) (input.drop 512)) =
        some ⟨input.drop 640, false, true, i32At input 136, i32At input 512, i32At input 576⟩ := by
      intro hl h1 h2
      rw [pslFetchCounts, lines (by omega) h1, Option.bind_eq_bind, Option.bind_some, pslFetchPoints_start h2, pslLineHeader_at, if_pos (by omega)]
      rfl
    have first : ∀ (hl : 652 ≤ input.length) (h1 : 0 < i32At input 136) (h2 : 0 < i32At input 512) (h3 : i32At input 576 ≠ 0),
        pslNext (PslIter.new input) = (some (.ok ⟨f32At input 640, f32At input 644, f32At input 648⟩),
          { pslReduceCount ⟨input.drop 640, false, true, i32At input 136, i32At input 512, i32At input 576⟩ with read := input.drop 652 }) := by
      intro hl h1 h2 h3
      have hr : (pslReduceCount ⟨input.drop 640, false, true, i32At input 136, i32At input 512, i32At input 576⟩).read = input.drop 640 := by
        unfold pslReduceCount; split_ifs <;> rfl
      rw [start (by omega), pslNextPoint, counts (by omega) h1 h2]
      dsimp only
      rw [if_neg (by simpa using h3), hr, pslPoint_at, if_pos (by omega)]
    unfold loadPsl
    cases h with
    | header h =>
      rcases pslNext_new input with ⟨-, h'⟩ | ⟨n, rest, h', -⟩
      · exact drain_error _ h'
      · rw [pslHeader_at, if_neg (by omega)] at h'; simp at h'
    | noPass hl h1 =>
      apply drain_none
      rw [start hl]
      simp [pslNextPoint, pslFetchCounts, pslFetchLines, pslFetchPoints, pslStart, not_lt.2 h1]
    | pass hl h1 h2 =>
      apply drain_error
      rw [start hl]
      simp [pslNextPoint, pslFetchCounts, pslFetchLines, pslStart, h1, pslPassHeader_at, show ¬576 ≤ input.length by omega]
    | noLine hl h1 h2 =>
      apply drain_none
      rw [start (by omega), pslNextPoint, pslFetchCounts, lines hl h1]
      simp [pslFetchPoints, not_lt.2 h2]
    | line hl h1 h2 h3 =>
      apply drain_error
      rw [start (by omega), pslNextPoint, pslFetchCounts, lines hl h1, Option.bind_eq_bind, Option.bind_some, pslFetchPoints_start h2, pslLineHeader_at, if_neg (by omega)]
      rfl
    | noPoint hl h1 h2 h3 =>
      apply drain_none
      rw [start (by omega), pslNextPoint, counts hl h1 h2]
      simp [h3]
    | point hl h1 h2 h3 h4 =>
      have hr : (pslReduceCount ⟨input.drop 640, false, true, i32At input 136, i32At input 512, i32At input 576⟩).read = input.drop 640 := by
        unfold pslReduceCount; split_ifs <;> rfl
      apply drain_error
      rw [start (by omega), pslNextPoint, counts hl h1 h2]
      dsimp only
      rw [if_neg (by simpa using h3), hr, pslPoint_at, if_neg (by omega)]
    | next hl h1 h2 h3 h4 =>
      obtain ⟨n, hn⟩ : ∃ n, input.length = n + 1 := ⟨input.length - 1, by omega⟩
      have hf := first hl h1 (by omega) (by omega)
      rw [hn, drain_ok _ hf, drain_error (e := .AccessFile)]
      · rfl
      · simp only [pslReduceCount, h2, if_neg (show ¬(i32At input 576 > 0) by omega)]
        simp [pslNext, pslNextPoint, pslFetchCounts, pslFetchLines, h1, pslPassHeader_at, show ¬716 ≤ input.length by omega]
    | one hl h1 h2 h3 h4 =>
      obtain ⟨n, hn⟩ : ∃ n, input.length = n + 1 := ⟨input.length - 1, by omega⟩
      have hf := first hl h1 h2 h3
      rw [hn, drain_ok _ hf, drain_none]
      · rfl
      · by_cases hp : i32At input 576 > 0
        · simp only [pslReduceCount, hp, if_true]
          simp [pslNext, pslNextPoint, pslFetchCounts, pslFetchLines, pslFetchPoints, show i32At input 512 ≠ 0 by omega]
        · by_cases h5 : i32At input 512 = 1
          · have h6 := h4 h5 (by omega)
            simp only [pslReduceCount, if_neg hp, h5]
            simp [pslNext, pslNextPoint, pslFetchCounts, pslFetchLines, pslFetchPoints, h1, pslPassHeader_at, h6, h3]
          · simp only [pslReduceCount, if_neg hp, if_pos (show i32At input 512 > 0 from h2)]
            simp [pslNext, pslNextPoint, pslFetchCounts, pslFetchLines, pslFetchPoints, show i32At input 512 - 1 ≠ 0 by omega]

/-- a line with a negative number of points: one point is loaded -/
example : ∃ s : Bytes, ∃ p, PslLoads s [p] (.error .AccessFile) ∧ i32At s 576 = -1 := by
  refine ⟨List.replicate 136 0 ++ [1, 0, 0, 0] ++ List.replicate 372 0 ++ [1, 0, 0, 0] ++ List.replicate 60 0 ++ [255, 255, 255, 255] ++
    List.replicate 60 0 ++ List.replicate 12 0, _, .next ?_ ?_ ?_ ?_ ?_, ?_⟩ <;> decide +kernel

end R3D

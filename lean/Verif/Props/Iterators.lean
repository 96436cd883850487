import Verif.Props.Off
import Verif.Props.Ptx
import Verif.Props.Obj
import Verif.Props.Las
import Verif.Props.Ply
import Verif.Props.Gcode
import Verif.Props.StlUnique
import Verif.Props.Xyz
import Verif.Model.Psl
/-!
# C118: what the iterators of the loaders return after the end and after an error

All iterators implement `FusedIterator`. The statements are about every state of the iterators, so in particular about those
that are met when reading a file.
-/
namespace R3D
open Spec

namespace Spec
variable {σ ι : Type}

/-- the state of an iterator after `n` calls of `next`; `none` if one of them panics -/
def afterCalls (next : σ → Panics (Option ι × σ)) : Nat → σ → Panics σ
  | 0, s => some s
  | n + 1, s => (next s).bind fun r => afterCalls next n r.2

/-- from now on every call of `next` returns `None` -/
def Exhausted (next : σ → Panics (Option ι × σ)) (s : σ) : Prop :=
  ∀ n, ∃ s' s'', afterCalls next n s = some s' ∧ next s' = some (none, s'')

/-- `FusedIterator`: once `None`, always `None` -/
def Fused (next : σ → Panics (Option ι × σ)) : Prop := ∀ s s', next s = some (none, s') → Exhausted next s'

/-- nothing is delivered after an error -/
def StopsAtError {ε α : Type} (next : σ → Panics (Option (Except ε α) × σ)) : Prop :=
  ∀ s e s', next s = some (some (.error e), s') → Exhausted next s'

end Spec

section
variable {σ ι ε β : Type}

/-- an iterator that does not panic, as one that could -/
def total (next : σ → Option ι × σ) (s : σ) : Panics (Option ι × σ) := some (next s)

theorem exhausted_of (next : σ → Panics (Option ι × σ)) (done : σ → Prop)
    (h : ∀ s, done s → ∃ s', next s = some (none, s') ∧ done s') : ∀ s, done s → Exhausted next s := by
  intro s hs n
  induction n generalizing s with
  | zero =>
    obtain ⟨s', h1, _⟩ := h s hs
    exact ⟨s, s', rfl, h1⟩
  | succ n ih =>
    obtain ⟨s', h1, h2⟩ := h s hs
    obtain ⟨a, b, h3, h4⟩ := ih s' h2
    exact ⟨a, b, by simp [afterCalls, h1, h3], h4⟩

/-- the usual case: there is a flag that is set at the end and at errors, and checked first -/
theorem fused_of_flag (next : σ → Panics (Option (Except ε β) × σ)) (done : σ → Prop)
    (h : ∀ s, done s → next s = some (none, s))
    (h1 : ∀ s s', next s = some (none, s') → done s')
    (h2 : ∀ s e s', next s = some (some (.error e), s') → done s') : Fused next ∧ StopsAtError next := by
  have hx := exhausted_of next done fun s hs => ⟨s, h s hs, hs⟩
  exact ⟨fun s s' e => hx _ (h1 _ _ e), fun s e s' x => hx _ (h2 _ _ _ x)⟩
end

section
variable {α : Type}

/-! ### the text formats -/

/-- C118 for .xyz and .xy -/
theorem c118_xyz (T : FloatText α) :
    (Fused (total (XyzIter.next (xyzFetchOne T))) ∧ StopsAtError (total (XyzIter.next (xyzFetchOne T)))) ∧
    (Fused (total (XyzIter.next (xyFetchOne T))) ∧ StopsAtError (total (XyzIter.next (xyFetchOne T)))) := by
  have key : ∀ {P : Type} (f : Option UInt8 → Bytes → Option UInt8 × Except XyzError P),
      Fused (total (XyzIter.next f)) ∧ StopsAtError (total (XyzIter.next f)) := by
    intro P f
    refine fused_of_flag _ (fun s => s.isDone = true) ?_ ?_ ?_
    · intro s hs; simp [total, XyzIter.next, hs]
    · intro s s' h
      simp only [total, Option.some.injEq] at h
      revert h
      unfold XyzIter.next
      split
      · rintro h; cases h; assumption
      · split
        · rintro h; cases h; rfl
        · dsimp only
          split
          · intro h; cases h
          · intro h; cases h
    · intro s e s' h
      simp only [total, Option.some.injEq] at h
      revert h
      unfold XyzIter.next
      split
      · rintro h; cases h
      · split
        · rintro h; cases h
        · dsimp only
          split
          · intro h; cases h
          · intro h; cases h; rfl
  exact ⟨key _, key _⟩

theorem objPointsLoop_done (T : FloatText α) (ls : List Bytes) (i : Nat) :
    (∀ s', objPointsLoop T ls i = (none, s') → s'.isDone = true) ∧
    (∀ e s', objPointsLoop T ls i = (some (.error e), s') → s'.isDone = true) := by
  induction ls generalizing i with
  | nil => constructor <;> intros <;> simp_all [objPointsLoop] ; subst_vars; rfl
  | cons l ls ih =>
    unfold objPointsLoop
    split
    · split
      · constructor <;> (intros; simp_all)
      · constructor
        · intros; simp_all
        · intro e s' h; cases h; rfl
    · exact ih _

theorem objMeshLoop_done (T : FloatText α) (ls : List Bytes) (i : Nat) :
    (∀ s', objMeshLoop T ls i = some (none, s') → s'.isDone = true) ∧
    (∀ e s', objMeshLoop T ls i = some (some (.error e), s') → s'.isDone = true) := by
  induction ls generalizing i with
  | nil => constructor <;> intros <;> simp_all [objMeshLoop] ; subst_vars; rfl
  | cons l ls ih =>
    unfold objMeshLoop
    split
    · split
      · constructor <;> (intros; simp_all)
      · constructor
        · intros; simp_all
        · intro e s' h; cases h; rfl
    · split
      · split
        · constructor <;> (intros; simp_all)
        · constructor <;> (intros; simp_all)
        · constructor
          · intros; simp_all
          · intro e s' h; cases h; rfl
      · exact ih _

/-- C118 for .obj, points and meshes -/
theorem c118_obj (T : FloatText α) :
    (Fused (total (objPointsNext T)) ∧ StopsAtError (total (objPointsNext T))) ∧
    (Fused (objMeshNext T) ∧ StopsAtError (objMeshNext T)) := by
  constructor
  · refine fused_of_flag _ (fun s => s.isDone = true) ?_ ?_ ?_
    · intro s hs; simp [total, objPointsNext, hs]
    · intro s s' h
      simp only [total, Option.some.injEq, objPointsNext] at h
      split at h
      · cases h; assumption
      · exact (objPointsLoop_done T _ _).1 _ h
    · intro s e s' h
      simp only [total, Option.some.injEq, objPointsNext] at h
      split at h
      · cases h
      · exact (objPointsLoop_done T _ _).2 _ _ h
  · refine fused_of_flag _ (fun s => s.isDone = true) ?_ ?_ ?_
    · intro s hs; simp [objMeshNext, hs]
    · intro s s' h
      simp only [objMeshNext] at h
      split at h
      · cases h; assumption
      · exact (objMeshLoop_done T _ _).1 _ h
    · intro s e s' h
      simp only [objMeshNext] at h
      split at h
      · cases h
      · exact (objMeshLoop_done T _ _).2 _ _ h

theorem offMeshLine_done (T : FloatText α) (l : Bytes) (s : OffMeshIter) :
    (∀ s', offMeshLine T l s ≠ (none, s')) ∧
    (∀ e s', offMeshLine T l s = (some (.error e), s') → s'.isDone = true) := by
  unfold offMeshLine
  constructor
  · intro s' h
    split at h
    · split at h <;> cases h
    · split at h <;> split at h <;> cases h
  · intro e s' h
    split at h
    · split at h <;> cases h; rfl
    · split at h <;> split at h <;> cases h <;> rfl

theorem offPointsLine_done (T : FloatText α) (l : Bytes) (s : OffMeshIter) :
    (∀ s', offPointsLine T l s = (none, s') → s'.isDone = true) ∧
    (∀ e s', offPointsLine T l s = (some (.error e), s') → s'.isDone = true) := by
  unfold offPointsLine
  constructor
  · intro s' h
    split at h
    · split at h <;> cases h
    · split at h
      · split at h <;> cases h
      · cases h; rfl
  · intro e s' h
    split at h
    · split at h <;> cases h; rfl
    · split at h
      · split at h <;> cases h; rfl
      · cases h

theorem offMeshLoop_done (T : FloatText α) (ls : List Bytes) (s : OffMeshIter) :
    (∀ s', offMeshLoop T ls s = (none, s') → s'.isDone = true) ∧
    (∀ e s', offMeshLoop T ls s = (some (.error e), s') → s'.isDone = true) := by
  induction ls generalizing s with
  | nil => constructor <;> intros <;> simp_all [offMeshLoop] ; subst_vars; rfl
  | cons l ls ih =>
    unfold offMeshLoop
    dsimp only
    split
    · exact ih _
    · split
      · exact ih _
      · exact ⟨fun s' h => absurd h ((offMeshLine_done T _ _).1 s'), (offMeshLine_done T _ _).2⟩

theorem offPointsLoop_done (T : FloatText α) (ls : List Bytes) (s : OffMeshIter) :
    (∀ s', offPointsLoop T ls s = (none, s') → s'.isDone = true) ∧
    (∀ e s', offPointsLoop T ls s = (some (.error e), s') → s'.isDone = true) := by
  induction ls generalizing s with
  | nil => constructor <;> intros <;> simp_all [offPointsLoop] ; subst_vars; rfl
  | cons l ls ih =>
    unfold offPointsLoop
    dsimp only
    split
    · exact ih _
    · split
      · exact ih _
      · exact offPointsLine_done T _ _

/-- C118 for .off, meshes and points -/
theorem c118_off (T : FloatText α) :
    (Fused (total (offMeshNext T)) ∧ StopsAtError (total (offMeshNext T))) ∧
    (Fused (total (offPointsNext T)) ∧ StopsAtError (total (offPointsNext T))) := by
  constructor
  · refine fused_of_flag _ (fun s => s.isDone = true) ?_ ?_ ?_
    · intro s hs; simp [total, offMeshNext, hs]
    · intro s s' h
      simp only [total, Option.some.injEq, offMeshNext] at h
      split at h
      · cases h; assumption
      · exact (offMeshLoop_done T _ _).1 _ h
    · intro s e s' h
      simp only [total, Option.some.injEq, offMeshNext] at h
      split at h
      · cases h
      · exact (offMeshLoop_done T _ _).2 _ _ h
  · refine fused_of_flag _ (fun s => s.isDone = true) ?_ ?_ ?_
    · intro s hs; simp [total, offPointsNext, hs]
    · intro s s' h
      simp only [total, Option.some.injEq, offPointsNext] at h
      split at h
      · cases h; assumption
      · exact (offPointsLoop_done T _ _).1 _ h
    · intro s e s' h
      simp only [total, Option.some.injEq, offPointsNext] at h
      split at h
      · cases h
      · exact (offPointsLoop_done T _ _).2 _ _ h

theorem ptsLoop_done (T : FloatText α) (ls : List Bytes) (s : PtsIter) :
    (∀ s', ptsLoop T ls s = (none, s') → s'.isDone = true) ∧
    (∀ e s', ptsLoop T ls s = (some (.error e), s') → s'.isDone = true) := by
  induction ls generalizing s with
  | nil => constructor <;> intros <;> simp_all [ptsLoop] ; subst_vars; rfl
  | cons l ls ih =>
    unfold ptsLoop
    dsimp only
    split
    · exact ih _
    · unfold ptsLine
      constructor
      · intro s' h
        split at h
        · split at h <;> cases h
        · split at h <;> split at h <;> cases h
      · intro e s' h
        split at h
        · split at h <;> cases h; rfl
        · split at h <;> split at h <;> cases h <;> rfl

/-- C118 for .pts -/
theorem c118_pts (T : FloatText α) : Fused (total (ptsNext T)) ∧ StopsAtError (total (ptsNext T)) := by
  refine fused_of_flag _ (fun s => s.isDone = true) ?_ ?_ ?_
  · intro s hs; simp [total, ptsNext, hs]
  · intro s s' h
    simp only [total, Option.some.injEq, ptsNext] at h
    split at h
    · cases h; assumption
    · exact (ptsLoop_done T _ _).1 _ h
  · intro s e s' h
    simp only [total, Option.some.injEq, ptsNext] at h
    split at h
    · cases h
    · exact (ptsLoop_done T _ _).2 _ _ h

theorem gcodeLoop_done [Add α] (T : FloatText α) (ls : List Bytes) (s : GcodeIter α) :
    (∀ s', gcodeLoop T ls s = (none, s') → s'.isDone = true) ∧
    (∀ e s', gcodeLoop T ls s = (some (.error e), s') → s'.isDone = true) := by
  induction ls generalizing s with
  | nil => constructor <;> intros <;> simp_all [gcodeLoop] ; subst_vars; rfl
  | cons l ls ih =>
    unfold gcodeLoop
    dsimp only
    split
    · split
      · split
        · split
          · exact ⟨fun s' h => by simp at h, fun e s' h => by cases h; rfl⟩
          · split
            · exact ⟨fun s' h => by simp at h, fun e s' h => by simp at h⟩
            · exact ih _
        · split
          · split
            · exact ih _
            · split
              · exact ih _
              · split
                · split
                  · exact ⟨fun s' h => by simp at h, fun e s' h => by cases h; rfl⟩
                  · split
                    · exact ⟨fun s' h => by simp at h, fun e s' h => by simp at h⟩
                    · exact ih _
                · exact ih _
          · exact ih _
      · exact ih _
    · exact ih _

/-- C118 for .gcode -/
theorem c118_gcode [Add α] (T : FloatText α) : Fused (total (gcodeNext T)) ∧ StopsAtError (total (gcodeNext T)) := by
  refine fused_of_flag _ (fun s => s.isDone = true) ?_ ?_ ?_
  · intro s hs; simp [total, gcodeNext, hs]
  · intro s s' h
    simp only [total, Option.some.injEq, gcodeNext] at h
    split at h
    · cases h; assumption
    · exact (gcodeLoop_done T _ _).1 _ h
  · intro s e s' h
    simp only [total, Option.some.injEq, gcodeNext] at h
    split at h
    · cases h
    · exact (gcodeLoop_done T _ _).2 _ _ h

/-- C118 for .ptx (partial, see `c118_violated_ptx`): the end is final, and so are all errors but for malformed points -/
theorem c118_ptx_partial [Scalar α] (T : FloatText α) : Fused (ptxNext T) ∧
    ∀ s e s', ptxNext T s = some (some (.error e), s') → s.nPointsToFetch = 0 ∨ s.lines = [] → Exhausted (ptxNext T) s' := by
  have hx := exhausted_of (ptxNext T) (fun s => s.isDone = true)
    fun s hs => ⟨s, by simp [ptxNext, hs], hs⟩
  constructor
  · intro s s' h
    apply hx
    unfold ptxNext at h
    split at h
    · cases h; assumption
    · split at h
      · split at h
        · cases h; rfl
        · split at h
          · cases h
          · split at h
            · cases h
            · split at h <;> cases h
      · split at h
        · cases h
        · dsimp only at h
          split at h <;> cases h
  · intro s e s' h h0
    apply hx
    unfold ptxNext at h
    split at h
    · cases h
    · split at h
      · split at h
        · cases h
        · split at h
          · cases h; rfl
          · split at h
            · cases h; rfl
            · split at h <;> cases h
      · rename_i h2
        split at h
        · cases h; rfl
        · rename_i h3
          rcases h0 with h0 | h0
          · exact absurd h0 h2
          · rw [h0] at h3; cases h3
end

/-! ### the binary formats -/

theorem pslNextPoint_done (s : PslIter) :
    (∀ s', pslNextPoint s = (none, s') → s'.isDone = true) ∧
    (∀ e s', pslNextPoint s = (some (.error e), s') → s'.isDone = true) := by
  unfold pslNextPoint
  constructor
  · intro s' h
    split at h
    · cases h
    · split at h
      · cases h; rfl
      · dsimp only at h; split at h <;> cases h
  · intro e s' h
    split at h
    · cases h; rfl
    · split at h
      · cases h
      · dsimp only at h; split at h <;> cases h; rfl

/-- C118 for .psl -/
theorem c118_psl : Fused (total pslNext) ∧ StopsAtError (total pslNext) := by
  refine fused_of_flag _ (fun s => s.isDone = true) ?_ ?_ ?_
  · intro s hs; simp [total, pslNext, hs]
  · intro s s' h
    simp only [total, Option.some.injEq, pslNext] at h
    split at h
    · cases h; assumption
    · split at h
      · split at h
        · cases h
        · exact (pslNextPoint_done _).1 _ h
      · exact (pslNextPoint_done _).1 _ h
  · intro s e s' h
    simp only [total, Option.some.injEq, pslNext] at h
    split at h
    · cases h
    · split at h
      · split at h
        · cases h; rfl
        · exact (pslNextPoint_done _).2 _ _ h
      · exact (pslNextPoint_done _).2 _ _ h

/-- C118 for .las -/
theorem c118_las : Fused lasNext ∧ StopsAtError lasNext := by
  refine fused_of_flag _ (fun s => s.isDone = true) ?_ ?_ ?_
  · intro s hs; simp [lasNext, hs]
  · intro s s' h
    unfold lasNext at h
    split at h
    · cases h; assumption
    · split at h
      · split at h <;> cases h
      · split at h
        · split at h <;> cases h
        · cases h; rfl
  · intro s e s' h
    unfold lasNext at h
    split at h
    · cases h
    · split at h
      · split at h <;> cases h; rfl
      · split at h
        · split at h <;> cases h; rfl
        · cases h

theorem stlBinaryNext_done (s : StlBinaryIter) :
    (s.isDone = true → stlBinaryNext s = some (none, s)) ∧
    (∀ s', stlBinaryNext s = some (none, s') → s'.isDone = true) ∧
    (∀ e s', stlBinaryNext s = some (some (.error e), s') → s'.isDone = true) := by
  refine ⟨fun h => by simp [stlBinaryNext, h], ?_, ?_⟩
  · intro s' h
    unfold stlBinaryNext at h
    split at h
    · cases h; assumption
    · split at h
      · split at h
        · cases h
        · split at h
          · cases h
          · split at h <;> cases h
      · split at h
        · split at h <;> cases h
        · cases h; rfl
  · intro e s' h
    unfold stlBinaryNext at h
    split at h
    · cases h
    · split at h
      · split at h
        · cases h; rfl
        · split at h
          · cases h; rfl
          · split at h <;> cases h; rfl
      · split at h
        · split at h <;> cases h; rfl
        · cases h

theorem stlAsciiNext_done (T : FloatText F64) (s : StlAsciiIter) :
    (s.isDone = true → stlAsciiNext T s = some (none, s)) ∧
    (∀ s', stlAsciiNext T s = some (none, s') → s'.isDone = true) ∧
    (∀ e s', stlAsciiNext T s = some (some (.error e), s') → s'.isDone = true) := by
  refine ⟨fun h => by simp [stlAsciiNext, h], ?_, ?_⟩
  · intro s' h
    unfold stlAsciiNext at h
    split at h
    · cases h; assumption
    · dsimp only at h
      split at h
      · cases h
      · split at h <;> cases h; rfl
  · intro e s' h
    unfold stlAsciiNext at h
    split at h
    · cases h
    · dsimp only at h
      split at h
      · cases h
      · split at h <;> cases h; rfl

/-- C118 for .stl -/
theorem c118_stl (T : FloatText F64) : Fused (stlNext T) ∧ StopsAtError (stlNext T) := by
  refine fused_of_flag _ (fun s => match s with | .Binary s => s.isDone = true | .Ascii s => s.isDone = true) ?_ ?_ ?_
  · rintro (s | s) hs
    · simp [stlNext, (stlBinaryNext_done s).1 hs]
    · simp [stlNext, (stlAsciiNext_done T s).1 hs]
  · rintro (s | s) s' h
    · simp only [stlNext, Option.map_eq_some_iff] at h
      obtain ⟨⟨r, t⟩, h1, h2⟩ := h
      cases h2
      exact (stlBinaryNext_done s).2.1 _ h1
    · simp only [stlNext, Option.map_eq_some_iff] at h
      obtain ⟨⟨r, t⟩, h1, h2⟩ := h
      cases h2
      exact (stlAsciiNext_done T s).2.1 _ h1
  · rintro (s | s) e s' h
    · simp only [stlNext, Option.map_eq_some_iff] at h
      obtain ⟨⟨r, t⟩, h1, h2⟩ := h
      cases h2
      exact (stlBinaryNext_done s).2.2 _ _ h1
    · simp only [stlNext, Option.map_eq_some_iff] at h
      obtain ⟨⟨r, t⟩, h1, h2⟩ := h
      cases h2
      exact (stlAsciiNext_done T s).2.2 _ _ h1

/-! ### .ply -/

theorem plyPointsInner_done (T : FloatText F64) (f : PlyFormat) (h : PlyVertexData) (s : PlyCursor) :
    (s.isDone = true → plyPointsInner T f h s = (none, s)) ∧
    (∀ s', plyPointsInner T f h s = (none, s') → s'.isDone = true) ∧
    (∀ e s', plyPointsInner T f h s = (some (.error e), s') → s'.isDone = true) := by
  cases f with
  | Ascii =>
    simp only [plyPointsInner]
    refine ⟨fun h => by simp [plyAsciiPointsNext, h], ?_, ?_⟩
    · intro s' x
      unfold plyAsciiPointsNext plyAsciiPointsEnd at x
      split at x
      · cases x; assumption
      · split at x
        · split at x
          · split at x <;> cases x
          · split at x <;> cases x; rfl
        · split at x <;> cases x; rfl
    · intro e s' x
      unfold plyAsciiPointsNext plyAsciiPointsEnd at x
      split at x
      · cases x
      · split at x
        · split at x
          · split at x <;> cases x; rfl
          · split at x <;> cases x; rfl
        · split at x <;> cases x; rfl
  | Binary en =>
    simp only [plyPointsInner, Prod.mk.injEq]
    refine ⟨fun h => by simp [plyBinaryPointsNext, h, plySimple], ?_, ?_⟩
    · rintro s' ⟨x, rfl⟩
      unfold plyBinaryPointsNext at x ⊢
      split at x
      · rename_i hd; simp [hd]
      · rename_i hd
        split at x
        · split at x <;> simp [plySimple] at x
        · rename_i hc
          rw [if_neg hd, if_neg hc]
    · rintro e s' ⟨x, rfl⟩
      unfold plyBinaryPointsNext at x ⊢
      split at x
      · simp [plySimple] at x
      · split at x
        · split at x
          · simp_all
          · simp [plySimple] at x
        · simp [plySimple] at x

theorem plyFacesInner_done (f : PlyFormat) (h : PlyFaceData) (s : PlyCursor) :
    (s.isDone = true → plyFacesInner f h s = (none, s)) ∧
    (∀ s', plyFacesInner f h s = (none, s') → s'.isDone = true) ∧
    (∀ e s', plyFacesInner f h s = (some (.error e), s') → s'.isDone = true) := by
  cases f with
  | Ascii =>
    simp only [plyFacesInner]
    refine ⟨fun h => by simp [plyAsciiFacesNext, h], ?_, ?_⟩
    · intro s' x
      unfold plyAsciiFacesNext at x
      split at x
      · cases x; assumption
      · split at x
        · split at x
          · split at x <;> cases x
          · cases x; rfl
        · cases x; rfl
    · intro e s' x
      unfold plyAsciiFacesNext at x
      split at x
      · cases x
      · split at x
        · split at x
          · split at x <;> cases x; rfl
          · cases x
        · cases x
  | Binary en =>
    simp only [plyFacesInner, Prod.mk.injEq]
    refine ⟨fun h => by simp [plyBinaryFacesNext, h, plySimple], ?_, ?_⟩
    · rintro s' ⟨x, rfl⟩
      unfold plyBinaryFacesNext at x ⊢
      split at x
      · rename_i hd; simp [hd]
      · rename_i hd
        split at x
        · split at x <;> simp [plySimple] at x
        · rename_i hc
          rw [if_neg hd, if_neg hc]
    · rintro e s' ⟨x, rfl⟩
      unfold plyBinaryFacesNext at x ⊢
      split at x
      · simp [plySimple] at x
      · split at x
        · split at x
          · simp_all
          · simp [plySimple] at x
        · simp [plySimple] at x

/-- C118 for the points of .ply -/
theorem c118_ply_points (T : FloatText F64) : Fused (total (plyPointsNext T)) ∧ StopsAtError (total (plyPointsNext T)) := by
  refine fused_of_flag _ (fun s => s.toReserve = none ∧ s.inner.isDone = true) ?_ ?_ ?_
  · rintro ⟨f, v, i, t⟩ ⟨h1, h2⟩
    dsimp only at h1 h2
    subst h1
    simp [total, plyPointsNext, (plyPointsInner_done T f v i).1 h2, plyData]
  · rintro ⟨f, v, i, t⟩ s' h
    simp only [total, Option.some.injEq, plyPointsNext] at h
    cases t with
    | some n => cases h
    | none =>
      simp only [Prod.mk.injEq] at h
      obtain ⟨h1, rfl⟩ := h
      refine ⟨rfl, (plyPointsInner_done T f v i).2.1 _ (Prod.ext ?_ rfl)⟩
      cases hr : (plyPointsInner T f v i).1 with
      | none => rfl
      | some x => rw [hr] at h1; cases x <;> simp [plyData] at h1
  · rintro ⟨f, v, i, t⟩ e s' h
    simp only [total, Option.some.injEq, plyPointsNext] at h
    cases t with
    | some n => cases h
    | none =>
      simp only [Prod.mk.injEq] at h
      obtain ⟨h1, rfl⟩ := h
      refine ⟨rfl, (plyPointsInner_done T f v i).2.2 e _ (Prod.ext ?_ rfl)⟩
      cases hr : (plyPointsInner T f v i).1 with
      | none => rw [hr] at h1; simp [plyData] at h1
      | some x => rw [hr] at h1; cases x <;> simp [plyData] at h1; simp [h1]

theorem plyMeshFaces_done (f : PlyFormat) (h : PlyFaceData) (s : PlyCursor) :
    (s.isDone = true → plyMeshFaces f h s = (none, .faces s)) ∧
    (∀ c, plyMeshFaces f h s = (none, c) → ∃ s', c = .faces s' ∧ s'.isDone = true) ∧
    (∀ e c, plyMeshFaces f h s = (some (.error e), c) → ∃ s', c = .faces s' ∧ s'.isDone = true) := by
  refine ⟨fun x => by simp [plyMeshFaces, (plyFacesInner_done f h s).1 x], ?_, ?_⟩
  · intro c x
    unfold plyMeshFaces at x
    split at x <;> cases x
    rename_i hq
    exact ⟨_, rfl, (plyFacesInner_done f h s).2.1 _ hq⟩
  · intro e c x
    unfold plyMeshFaces at x
    split at x <;> cases x
    rename_i hq
    exact ⟨_, rfl, (plyFacesInner_done f h s).2.2 _ _ hq⟩

/-- C118 for meshes in .ply (partial, see `c118_violated_ply`): the end is final, and so are errors in the faces -/
theorem c118_ply_mesh_partial (T : FloatText F64) : Fused (total (plyMeshNext T)) ∧
    ∀ s e s' c, s.inner = .faces c → total (plyMeshNext T) s = some (some (.error e), s') → Exhausted (total (plyMeshNext T)) s' := by
  have hx := exhausted_of (total (plyMeshNext T)) (fun s => s.toReserve = none ∧ ∃ c, s.inner = .faces c ∧ c.isDone = true)
    (by
      rintro ⟨f, v, fa, i, t⟩ ⟨h1, c, h2, h3⟩
      dsimp only at h1 h2
      subst h1; subst h2
      refine ⟨⟨f, v, fa, .faces c, none⟩, ?_, rfl, c, rfl, h3⟩
      simp [total, plyMeshNext, plyMeshInner, (plyMeshFaces_done f fa c).1 h3])
  have hx' : ∀ s : PlyMeshIter, s.toReserve = none ∧ (∃ c, s.inner = .faces c ∧ c.isDone = true) →
      Exhausted (total (plyMeshNext T)) s := hx
  constructor
  · rintro ⟨f, v, fa, i, t⟩ s' h
    apply hx'
    simp only [total, Option.some.injEq, plyMeshNext] at h
    cases t with
    | some n => cases h
    | none =>
      simp only [Prod.mk.injEq] at h
      obtain ⟨h1, rfl⟩ := h
      refine ⟨rfl, ?_⟩
      dsimp only
      cases i with
      | points p =>
        simp only [plyMeshInner] at h1 ⊢
        split at h1
        · cases h1
        · cases h1
        · exact (plyMeshFaces_done _ _ _).2.1 _ (Prod.ext h1 rfl)
      | faces p => exact (plyMeshFaces_done _ _ _).2.1 _ (Prod.ext h1 rfl)
  · rintro ⟨f, v, fa, i, t⟩ e s' c hc h
    apply hx'
    dsimp only at hc
    subst hc
    simp only [total, Option.some.injEq, plyMeshNext] at h
    cases t with
    | some n => cases h
    | none =>
      simp only [Prod.mk.injEq] at h
      obtain ⟨h1, rfl⟩ := h
      exact ⟨rfl, (plyMeshFaces_done _ _ _).2.2 e _ (Prod.ext h1 rfl)⟩

/-! ### examples and violations -/

/-- the results of the first `n` calls of `next` -/
def Spec.results {σ ι : Type} (next : σ → Panics (Option ι × σ)) : Nat → σ → Panics (List (Option ι))
  | 0, _ => some []
  | n + 1, s => (next s).bind fun r => (results next n r.2).map (r.1 :: ·)

/-- a malformed line of a .xyz file is the last thing returned -/
example : results (total (XyzIter.next (xyzFetchOne natText))) 4 (XyzIter.new b!"1 2 3\n4 oops 6\n7 8 9\n") =
    some [some (.ok ⟨1, 2, 3⟩), some (.error (.line 2 b!"4 oops 6" .Vertex)), none, none] := by decide +kernel

/-- a file of one scan, the first point of which is malformed -/
def badScan : Bytes := b!"2\n1\n0 0 0\n1 0 0\n0 1 0\n0 0 1\n1 0 0 0\n0 1 0 0\n0 0 1 0\n0 0 0 1\noops\n4 5 6 50\n"

/-- C118 is violated for .ptx: a malformed point is reported, and the next call returns the point behind it. -/
theorem c118_violated_ptx : ∃ e p, results (ptxNext natF64) 3 (PtxIter.new badScan) =
    some [some (.ok (.reserve 2 0)), some (.error e), some (.ok (.data p))] :=
  ⟨.line 11 b!"oops" .Point, ⟨F64.ofRat 4, F64.ofRat 5, F64.ofRat 6⟩, by decide +kernel⟩

/-- a mesh the first vertex of which is malformed -/
def badPly : Bytes := b!"ply\nformat ascii 1.0\nelement vertex 1\nproperty float x\nproperty float y\nproperty float z\nelement face 1\nproperty list uchar uint vertex_indices\nend_header\noops\n3 0 1 2\n"

/-- C118 is violated for meshes in .ply: after a malformed vertex the iterator goes on with faces. -/
theorem c118_violated_ply : ∃ it e, PlyMeshIter.new badPly = some (.ok it) ∧ results (total (plyMeshNext natF64)) 3 it =
    some [some (.ok (.reserve 1 1)), some (.error e), some (.ok (.face 0 1 2))] := by
  have h : (PlyMeshIter.new badPly).bind (fun r => match r with
      | .ok it => results (total (plyMeshNext natF64)) 3 it
      | .error _ => none) = some [some (.ok (.reserve 1 1)), some (.error (.line 10 b!"oops" .InvalidVertex)),
        some (.ok (.face 0 1 2))] := by decide +kernel
  revert h
  generalize PlyMeshIter.new badPly = o
  rcases o with _ | (e | it)
  · intro h; cases h
  · intro h; cases h
  · intro h; exact ⟨it, _, rfl, h⟩

/-- the other errors are final: a header of a .ptx file without a matrix, a malformed face of a .ply file -/
example : results (ptxNext natF64) 3 (PtxIter.new b!"2\n1\n0 0 0\n1 0 0\n0 1 0\n0 0 1\n1 0 0 0\noops\n1 2 3 4\n5 6 7 8\n9 1 2 3\n") =
    some [some (.error (.line 8 b!"oops" .Matrix)), none, none] := by decide +kernel

example : (PlyMeshIter.new b!"ply\nformat ascii 1.0\nelement vertex 1\nproperty float x\nproperty float y\nproperty float z\nelement face 2\nproperty list uchar uint vertex_indices\nend_header\n1 2 3\noops\n3 0 1 2\n").bind
    (fun r => match r with
      | .ok it => results (total (plyMeshNext natF64)) 5 it
      | .error _ => none) = some [some (.ok (.reserve 1 2)), some (.ok (.data ⟨F64.ofRat 1, F64.ofRat 2, F64.ofRat 3⟩)),
        some (.error (.line 11 b!"oops" .FaceStructure)), none, none] := by decide +kernel

end R3D

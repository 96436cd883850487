import Verif.Props.Truncated
import Verif.Props.PtxExact
import Verif.Props.StlFile
/-!
# C122: joined files

Files of points, .obj files and scans are often joined by appending one to the other. Loading the joined file is loading the second
after the first. The text formats whose loaders keep no state between lines do so without condition, .ptx files as well; for .xyz and
.xy the files have to use the same delimiter, for .pts the blocks of the first file have to be complete, and for G-code the first file
has to end where files start.
-/
namespace R3D
open Spec

variable {α σ ε P μ : Type}

/-! ### specification -/

/-- what is said about a line, `k` lines later -/
def Spec.later (k : Nat) : LineInfo ε → LineInfo ε
  | .none e => .none e
  | .index i e => .index (i + k) e
  | .line i l e => .line (i + k) l e

/-- a result with its error `k` lines later -/
def Spec.laterResult (k : Nat) : Except (LineInfo ε) Unit → Except (LineInfo ε) Unit
  | .ok () => .ok ()
  | .error e => .error (later k e)

/-- what happens after the first file: `K`, unless that failed -/
def Spec.onOk {ε : Type} (first : Panics (μ × Except ε Unit)) (K : μ → Panics (μ × Except ε Unit)) : Panics (μ × Except ε Unit) :=
  match first with
  | none => none
  | some (m, .error e) => some (m, .error e)
  | some (m, .ok ()) => K m

/-- The result of loading a joined file: `first` is that of the first file, which has `k` lines; `second` loads the second file into
what the first one left. -/
def Spec.joinResult (k : Nat) (first : Panics (μ × Except (LineInfo ε) Unit)) (second : μ → Panics (μ × Except (LineInfo ε) Unit)) :
    Panics (μ × Except (LineInfo ε) Unit) :=
  onOk first fun m => (second m).map fun x => (x.1, laterResult k x.2)

/-- the points `pts`, then the others -/
def Spec.andThen (pts : List P) (x : Panics (List P × Except (LineInfo ε) Unit)) : Panics (List P × Except (LineInfo ε) Unit) :=
  x.map fun y => (pts ++ y.1, y.2)

/-! ### the loops -/

/-- A loop over the lines of one file, then those of another: `app` adds the lines of the second file to a state of the first,
`len` bounds the number of steps, `K` is what happens after the first file. -/
theorem forEach_join {next : σ → Panics (Option (Except ε α) × σ)} {push : μ → α → μ × Except ε Unit} (app : σ → σ) (len : σ → Nat) (k : Nat)
    (G : σ → Prop) (K : μ → Panics (μ × Except ε Unit))
    (hpanic : ∀ s, G s → next s = none → next (app s) = none)
    (herr : ∀ s e s', G s → next s = some (some (.error e), s') → ∃ t, next (app s) = some (some (.error e), t))
    (hok : ∀ s x s', G s → next s = some (some (.ok x), s') → next (app s) = some (some (.ok x), app s') ∧ G s' ∧ len s' < len s)
    (hend : ∀ s s', G s → next s = some (none, s') → ∀ N m, k < N → forEach next push N (app s) m = K m) :
    ∀ (n N : Nat) (s : σ) (m : μ), G s → len s < n → len s + k < N →
      forEach next push N (app s) m = onOk (forEach next push n s m) K := by
  intro n
  induction n with
  | zero => intro N s m _ h; omega
  | succ n ih =>
    intro N s m hG hn hN
    obtain ⟨N, rfl⟩ : ∃ M, N = M + 1 := ⟨N - 1, by omega⟩
    conv_rhs => unfold forEach
    rcases hs : next s with _ | ⟨_ | e | x, s'⟩
    · simp [forEach, onOk, hpanic s hG hs]
    · exact hend s s' hG hs _ _ (by omega)
    · obtain ⟨t, ht⟩ := herr s e s' hG hs
      simp [forEach, onOk, ht]
    · obtain ⟨h1, h2, h3⟩ := hok s x s' hG hs
      rw [forEach, h1]
      dsimp only
      rcases hp : push m x with ⟨m', e | ⟨⟩⟩
      · simp [onOk]
      · dsimp only
        exact ih N s' m' h2 (by omega) (by omega)

/-- A loop whose states correspond to those of another, with the same items and errors that are `k` lines later. -/
theorem forEach_later {next : σ → Panics (Option (Except (LineInfo ε) α) × σ)} {push : μ → α → μ × Except (LineInfo ε) Unit} (k : Nat)
    (hpush : ∀ m x e, (push m x).2 = .error e → later k e = e) (R : σ → σ → Prop) (len : σ → Nat)
    (hpanic : ∀ s t, R s t → next s = none → next t = none)
    (hnone : ∀ s t s', R s t → next s = some (none, s') → ∃ t', next t = some (none, t'))
    (herr : ∀ s t e s', R s t → next s = some (some (.error e), s') → ∃ t', next t = some (some (.error (later k e)), t'))
    (hok : ∀ s t x s', R s t → next s = some (some (.ok x), s') → len s' < len s ∧ ∃ t', next t = some (some (.ok x), t') ∧ R s' t') :
    ∀ (n N : Nat) (s t : σ) (m : μ), R s t → len s < n → len s < N →
      forEach next push N t m = (forEach next push n s m).map fun x => (x.1, laterResult k x.2) := by
  intro n
  induction n with
  | zero => intro N s t m _ h; omega
  | succ n ih =>
    intro N s t m hR hn hN
    obtain ⟨N, rfl⟩ : ∃ M, N = M + 1 := ⟨N - 1, by omega⟩
    conv_rhs => unfold forEach
    rcases hs : next s with _ | ⟨_ | e | x, s'⟩
    · simp [forEach, hpanic s t hR hs]
    · obtain ⟨t', ht⟩ := hnone s t s' hR hs
      simp [forEach, ht, laterResult]
    · obtain ⟨t', ht⟩ := herr s t e s' hR hs
      simp [forEach, ht, laterResult]
    · obtain ⟨hl, t', ht, hR'⟩ := hok s t x s' hR hs
      rw [forEach, ht]
      dsimp only
      rcases hp : push m x with ⟨m', e | ⟨⟩⟩
      · have := hpush m x e (by rw [hp])
        simp [laterResult, this]
      · dsimp only
        exact ih N s' t' m' hR' (by omega) (by omega)

theorem pushItem_later (k : Nat) (m : List (Point3D α)) (x : Item (Point3D α)) (e : LineInfo ε)
    (h : (pushItem (ε := LineInfo ε) m x).2 = .error e) : later k e = e := by
  cases x <;> simp [pushItem] at h

/-- what was loaded before does not matter for points -/
theorem forEach_before {next : σ → Panics (Option (Except ε (Item (Point3D α))) × σ)} (pre : List (Point3D α)) :
    ∀ (n : Nat) (s : σ) (ip : List (Point3D α)), forEach next pushItem n s (pre ++ ip) =
      (forEach next pushItem n s ip).map fun y => (pre ++ y.1, y.2)
  | 0, _, _ => rfl
  | n + 1, s, ip => by
    unfold forEach
    rcases next s with _ | ⟨_ | e | x, s'⟩
    · rfl
    · rfl
    · rfl
    · cases x with
      | data p =>
        simp only [pushItem, List.append_assoc]
        exact forEach_before pre n s' (ip ++ [p])
      | face a b c => exact forEach_before pre n s' ip
      | reserve a b => exact forEach_before pre n s' ip

/-! ### .obj -/

theorem objMeshLoop_join (T : FloatText α) (y : List Bytes) (ls : List Bytes) (i : Nat) :
    (objMeshLoop T ls i = none → objMeshLoop T (ls ++ y) i = none) ∧
    (∀ e s', objMeshLoop T ls i = some (some (.error e), s') → ∃ t, objMeshLoop T (ls ++ y) i = some (some (.error e), t)) ∧
    (∀ x s', objMeshLoop T ls i = some (some (.ok x), s') →
      objMeshLoop T (ls ++ y) i = some (some (.ok x), ⟨s'.lines ++ y, s'.isDone, s'.iLine⟩) ∧ s'.isDone = false ∧
        s'.lines.length < ls.length ∧ s'.iLine + s'.lines.length = i + ls.length) ∧
    (∀ s', objMeshLoop T ls i = some (none, s') → objMeshLoop T (ls ++ y) i = objMeshLoop T y (i + ls.length)) := by
  induction ls generalizing i with
  | nil => simp [objMeshLoop]
  | cons l ls ih =>
    obtain ⟨h1, h2, h3, h4⟩ := ih (i + 1)
    rw [List.cons_append]
    unfold objMeshLoop
    split
    · rcases objFetchVertex T l with e | p
      · simp
      · simp; omega
    · split
      · rcases objFetchFace l with _ | e | ⟨a, b, c⟩
        · simp
        · simp
        · simp; omega
      · refine ⟨h1, h2, fun x s' h => ?_, fun s' h => ?_⟩
        · obtain ⟨a, b, c, d⟩ := h3 x s' h
          exact ⟨a, b, by simp; omega, by simp; omega⟩
        · rw [h4 s' h, show i + 1 + ls.length = i + (l :: ls).length by simp; omega]; exact objMeshLoop.eq_def ..

theorem objMeshLoop_later (T : FloatText α) (k : Nat) (ls : List Bytes) (i : Nat) :
    (objMeshLoop T ls i = none → objMeshLoop T ls (i + k) = none) ∧
    (∀ s', objMeshLoop T ls i = some (none, s') → ∃ t, objMeshLoop T ls (i + k) = some (none, t)) ∧
    (∀ e s', objMeshLoop T ls i = some (some (.error e), s') → ∃ t, objMeshLoop T ls (i + k) = some (some (.error (later k e)), t)) ∧
    (∀ x s', objMeshLoop T ls i = some (some (.ok x), s') →
      objMeshLoop T ls (i + k) = some (some (.ok x), ⟨s'.lines, s'.isDone, s'.iLine + k⟩) ∧ s'.isDone = false ∧ s'.lines.length < ls.length) := by
  induction ls generalizing i with
  | nil => simp [objMeshLoop]
  | cons l ls ih =>
    obtain ⟨h1, h2, h3, h4⟩ := ih (i + 1)
    have e : i + k + 1 = i + 1 + k := by omega
    unfold objMeshLoop
    split
    · rcases objFetchVertex T l with e' | p
      · simp [later, e]
      · simp [e]
    · split
      · rcases objFetchFace l with _ | e' | ⟨a, b, c⟩
        · simp
        · simp [later, e]
        · simp [e]
      · rw [e]
        refine ⟨h1, h2, h3, fun x s' h => ?_⟩
        obtain ⟨a, b, c⟩ := h4 x s' h
        exact ⟨a, b, by simp; omega⟩

theorem objPush_later (k : Nat) (m : TMesh (Point3D α)) (x : Item (Point3D α)) (e : LineInfo ObjError) (h : (objPush m x).2 = .error e) :
    later k e = e := by
  cases x with
  | data p => simp [objPush] at h
  | reserve a b => simp [objPush] at h
  | face a b c =>
    unfold objPush at h
    dsimp only at h
    split at h
    · simp at h
    · simp at h; subst h; rfl

theorem objPointsLoop_join (T : FloatText α) (y : List Bytes) (ls : List Bytes) (i : Nat) :
    (∀ e s', objPointsLoop T ls i = (some (.error e), s') → ∃ t, objPointsLoop T (ls ++ y) i = (some (.error e), t)) ∧
    (∀ x s', objPointsLoop T ls i = (some (.ok x), s') →
      objPointsLoop T (ls ++ y) i = (some (.ok x), ⟨s'.lines ++ y, s'.isDone, s'.iLine⟩) ∧ s'.isDone = false ∧
        s'.lines.length < ls.length ∧ s'.iLine + s'.lines.length = i + ls.length) ∧
    (∀ s', objPointsLoop T ls i = (none, s') → objPointsLoop T (ls ++ y) i = objPointsLoop T y (i + ls.length)) := by
  induction ls generalizing i with
  | nil => simp [objPointsLoop]
  | cons l ls ih =>
    obtain ⟨h2, h3, h4⟩ := ih (i + 1)
    rw [List.cons_append]
    unfold objPointsLoop
    split
    · rcases objFetchVertex T l with e | p
      · simp
      · simp; omega
    · refine ⟨h2, fun x s' h => ?_, fun s' h => ?_⟩
      · obtain ⟨a, b, c, d⟩ := h3 x s' h
        exact ⟨a, b, by simp; omega, by simp; omega⟩
      · rw [h4 s' h, show i + 1 + ls.length = i + (l :: ls).length by simp; omega]; exact objPointsLoop.eq_def ..

theorem objPointsLoop_later (T : FloatText α) (k : Nat) (ls : List Bytes) (i : Nat) :
    (∀ s', objPointsLoop T ls i = (none, s') → ∃ t, objPointsLoop T ls (i + k) = (none, t)) ∧
    (∀ e s', objPointsLoop T ls i = (some (.error e), s') → ∃ t, objPointsLoop T ls (i + k) = (some (.error (later k e)), t)) ∧
    (∀ x s', objPointsLoop T ls i = (some (.ok x), s') →
      objPointsLoop T ls (i + k) = (some (.ok x), ⟨s'.lines, s'.isDone, s'.iLine + k⟩) ∧ s'.isDone = false ∧ s'.lines.length < ls.length) := by
  induction ls generalizing i with
  | nil => simp [objPointsLoop]
  | cons l ls ih =>
    obtain ⟨h2, h3, h4⟩ := ih (i + 1)
    have e : i + k + 1 = i + 1 + k := by omega
    unfold objPointsLoop
    split
    · rcases objFetchVertex T l with e' | p
      · simp [later, e]
      · simp [e]
    · rw [e]
      refine ⟨h2, h3, fun x s' h => ?_⟩
      obtain ⟨a, b, c⟩ := h4 x s' h
      exact ⟨a, b, by simp; omega⟩

/-- `forEach_join` for loops that only collect -/
theorem drain_join {next : σ → Option (Except (LineInfo ε) α) × σ} (app : σ → σ) (len : σ → Nat) (k : Nat)
    (G : σ → Prop) (K : Panics (List α × Except (LineInfo ε) Unit))
    (herr : ∀ s e s', G s → next s = (some (.error e), s') → ∃ t, next (app s) = (some (.error e), t))
    (hok : ∀ s x s', G s → next s = (some (.ok x), s') → next (app s) = (some (.ok x), app s') ∧ G s' ∧ len s' < len s)
    (hend : ∀ s s', G s → next s = (none, s') → ∀ N, k < N → drain next N (app s) = K) :
    ∀ (n N : Nat) (s : σ), G s → len s < n → len s + k < N →
      drain next N (app s) = onOk (drain next n s) fun m => andThen m K := by
  intro n
  induction n with
  | zero => intro N s _ h; omega
  | succ n ih =>
    intro N s hG hn hN
    obtain ⟨N, rfl⟩ : ∃ M, N = M + 1 := ⟨N - 1, by omega⟩
    conv_rhs => unfold drain
    rcases hs : next s with ⟨_ | e | x, s'⟩
    · rw [hend s s' hG hs _ (by omega)]
      simp [andThen, onOk]
    · obtain ⟨t, ht⟩ := herr s e s' hG hs
      simp [drain, onOk, ht]
    · obtain ⟨h1, h2, h3⟩ := hok s x s' hG hs
      rw [drain, h1]
      dsimp only
      rw [ih N s' h2 (by omega) (by omega)]
      rcases drain next n s' with _ | ⟨m, e | ⟨⟩⟩ <;> simp [andThen, onOk, Function.comp_def]

/-- `forEach_later` for loops that only collect -/
theorem drain_later {next : σ → Option (Except (LineInfo ε) α) × σ} (k : Nat) (R : σ → σ → Prop) (len : σ → Nat)
    (hnone : ∀ s t s', R s t → next s = (none, s') → ∃ t', next t = (none, t'))
    (herr : ∀ s t e s', R s t → next s = (some (.error e), s') → ∃ t', next t = (some (.error (later k e)), t'))
    (hok : ∀ s t x s', R s t → next s = (some (.ok x), s') → len s' < len s ∧ ∃ t', next t = (some (.ok x), t') ∧ R s' t') :
    ∀ (n N : Nat) (s t : σ), R s t → len s < n → len s < N →
      drain next N t = (drain next n s).map fun x => (x.1, laterResult k x.2) := by
  intro n
  induction n with
  | zero => intro N s t _ h; omega
  | succ n ih =>
    intro N s t hR hn hN
    obtain ⟨N, rfl⟩ : ∃ M, N = M + 1 := ⟨N - 1, by omega⟩
    conv_rhs => unfold drain
    rcases hs : next s with ⟨_ | e | x, s'⟩
    · obtain ⟨t', ht⟩ := hnone s t s' hR hs
      simp [drain, ht, laterResult]
    · obtain ⟨t', ht⟩ := herr s t e s' hR hs
      simp [drain, ht, laterResult]
    · obtain ⟨hl, t', ht, hR'⟩ := hok s t x s' hR hs
      rw [drain, ht]
      dsimp only
      rw [ih N s' t' hR' (by omega) (by omega)]
      simp [Function.comp_def]

theorem andThen_join (k : Nat) (first second : Panics (List P × Except (LineInfo ε) Unit)) :
    (onOk first fun m => andThen m (second.map fun x => (x.1, laterResult k x.2))) = joinResult k first fun pts => andThen pts second := by
  rcases first with _ | ⟨m, e | ⟨⟩⟩ <;> simp [joinResult, onOk, andThen, Function.comp_def]

/-- **C122**, .obj: loading a joined file is loading the second file after the first; vertex numbers in the second file count the
vertices of the first. -/
theorem c122_obj (T : FloatText α) (a b : Bytes) (h : EndsLine a) :
    (∀ m, loadObjMesh T (a ++ b) m = joinResult (lines a).length (loadObjMesh T a m) (loadObjMesh T b)) ∧
    loadObjPoints T (a ++ b) = joinResult (lines a).length (loadObjPoints T a) fun pts => andThen pts (loadObjPoints T b) := by
  constructor
  · intro m
    unfold loadObjMesh
    rw [lines_cut a b h]
    generalize lines a = x
    generalize lines b = y
    refine forEach_join (next := objMeshNext T) (push := objPush) (fun s => ⟨s.lines ++ y, s.isDone, s.iLine⟩) (fun s => s.lines.length) y.length
      (fun s => s.isDone = false ∧ s.iLine + s.lines.length = x.length)
      (fun m => (forEach (objMeshNext T) objPush (y.length + 1) ⟨y, false, 0⟩ m).map fun z => (z.1, laterResult x.length z.2))
      ?_ ?_ ?_ ?_ (x.length + 1) ((x ++ y).length + 1) ⟨x, false, 0⟩ m (by simp) (by simp) (by simp)
    · rintro ⟨ls, d, i⟩ ⟨rfl, -⟩ h
      exact (objMeshLoop_join T y ls i).1 h
    · rintro ⟨ls, d, i⟩ e s' ⟨rfl, -⟩ h
      exact (objMeshLoop_join T y ls i).2.1 e s' h
    · rintro ⟨ls, d, i⟩ z s' ⟨rfl, hi⟩ h
      obtain ⟨h1, h2, h3, h4⟩ := (objMeshLoop_join T y ls i).2.2.1 z s' h
      exact ⟨h1, ⟨h2, h4.trans hi⟩, h3⟩
    · rintro ⟨ls, d, i⟩ s' ⟨rfl, hi⟩ h N m hN
      have e := (objMeshLoop_join T y ls i).2.2.2 s' h
      obtain ⟨N, rfl⟩ : ∃ M, N = M + 1 := ⟨N - 1, by omega⟩
      have hstart : forEach (objMeshNext T) objPush (N + 1) ⟨ls ++ y, false, i⟩ m =
          forEach (objMeshNext T) objPush (N + 1) ⟨y, false, 0 + x.length⟩ m := by
        have : objMeshNext T ⟨ls ++ y, false, i⟩ = objMeshNext T ⟨y, false, 0 + x.length⟩ := by
          dsimp only at hi
          simp only [objMeshNext, Bool.false_eq_true, if_false]
          rw [e, hi, Nat.zero_add]
        unfold forEach
        rw [this]
      dsimp only
      rw [hstart]
      refine forEach_later (next := objMeshNext T) x.length (objPush_later _) (fun s t => s.isDone = false ∧ t = ⟨s.lines, false, s.iLine + x.length⟩)
        (fun s => s.lines.length) ?_ ?_ ?_ ?_ (y.length + 1) (N + 1) ⟨y, false, 0⟩ _ m ⟨rfl, rfl⟩ (by simp) (by simpa using hN)
      · rintro ⟨ls, d, i⟩ _ ⟨rfl, rfl⟩ h
        exact (objMeshLoop_later T x.length ls i).1 h
      · rintro ⟨ls, d, i⟩ _ s' ⟨rfl, rfl⟩ h
        exact (objMeshLoop_later T x.length ls i).2.1 _ h
      · rintro ⟨ls, d, i⟩ _ e s' ⟨rfl, rfl⟩ h
        exact (objMeshLoop_later T x.length ls i).2.2.1 _ _ h
      · rintro ⟨ls, d, i⟩ _ z s' ⟨rfl, rfl⟩ h
        obtain ⟨h1, h2, h3⟩ := (objMeshLoop_later T x.length ls i).2.2.2 _ _ h
        exact ⟨h3, _, h1, h2, by rw [h2]⟩
  · unfold loadObjPoints
    rw [lines_cut a b h]
    generalize lines a = x
    generalize lines b = y
    rw [← andThen_join]
    refine drain_join (next := objPointsNext T) (fun s => ⟨s.lines ++ y, s.isDone, s.iLine⟩) (fun s => s.lines.length) y.length
      (fun s => s.isDone = false ∧ s.iLine + s.lines.length = x.length) _
      ?_ ?_ ?_ (x.length + 1) ((x ++ y).length + 1) ⟨x, false, 0⟩ (by simp) (by simp) (by simp)
    · rintro ⟨ls, d, i⟩ e s' ⟨rfl, -⟩ h
      exact (objPointsLoop_join T y ls i).1 e s' h
    · rintro ⟨ls, d, i⟩ z s' ⟨rfl, hi⟩ h
      obtain ⟨h1, h2, h3, h4⟩ := (objPointsLoop_join T y ls i).2.1 z s' h
      exact ⟨h1, ⟨h2, h4.trans hi⟩, h3⟩
    · rintro ⟨ls, d, i⟩ s' ⟨rfl, hi⟩ h N hN
      have e := (objPointsLoop_join T y ls i).2.2 s' h
      obtain ⟨N, rfl⟩ : ∃ M, N = M + 1 := ⟨N - 1, by omega⟩
      have hstart : drain (objPointsNext T) (N + 1) ⟨ls ++ y, false, i⟩ = drain (objPointsNext T) (N + 1) ⟨y, false, 0 + x.length⟩ := by
        have : objPointsNext T ⟨ls ++ y, false, i⟩ = objPointsNext T ⟨y, false, 0 + x.length⟩ := by
          dsimp only at hi
          simp only [objPointsNext, Bool.false_eq_true, if_false]
          rw [e, hi, Nat.zero_add]
        unfold drain
        rw [this]
      dsimp only
      rw [hstart]
      refine drain_later (next := objPointsNext T) x.length (fun s t => s.isDone = false ∧ t = ⟨s.lines, false, s.iLine + x.length⟩)
        (fun s => s.lines.length) ?_ ?_ ?_ (y.length + 1) (N + 1) ⟨y, false, 0⟩ _ ⟨rfl, rfl⟩ (by simp) (by simpa using hN)
      · rintro ⟨ls, d, i⟩ _ s' ⟨rfl, rfl⟩ h
        exact (objPointsLoop_later T x.length ls i).1 _ h
      · rintro ⟨ls, d, i⟩ _ e s' ⟨rfl, rfl⟩ h
        exact (objPointsLoop_later T x.length ls i).2.1 _ _ h
      · rintro ⟨ls, d, i⟩ _ z s' ⟨rfl, rfl⟩ h
        obtain ⟨h1, h2, h3⟩ := (objPointsLoop_later T x.length ls i).2.2 _ _ h
        exact ⟨h3, _, h1, h2, by rw [h2]⟩

/-- three vertices, and a face that uses them: each file alone is no mesh with a face, joined they are one -/
example : EndsLine b!"v 0 0 0\nv 1 0 0\nv 0 1 0\n" ∧
    loadObjMesh natText b!"f 1 2 3\n" .empty = some (.empty, .error (.none .InvalidMeshIndices)) ∧
    loadObjMesh natText (b!"v 0 0 0\nv 1 0 0\nv 0 1 0\n" ++ b!"f 1 2 3\nv 1\n") .empty =
      some (⟨[⟨0, 0, 0⟩, ⟨1, 0, 0⟩, ⟨0, 1, 0⟩], [⟨0, 1, 2⟩]⟩, .error (.line 5 b!"v 1" .Vertex)) ∧
    loadObjMesh natText b!"f 1 2 3\nv 1\n" ⟨[⟨0, 0, 0⟩, ⟨1, 0, 0⟩, ⟨0, 1, 0⟩], []⟩ =
      some (⟨[⟨0, 0, 0⟩, ⟨1, 0, 0⟩, ⟨0, 1, 0⟩], [⟨0, 1, 2⟩]⟩, .error (.line 2 b!"v 1" .Vertex)) :=
  ⟨.inr ⟨b!"v 0 0 0\nv 1 0 0\nv 0 1 0", rfl⟩, by decide +kernel, by decide +kernel, by decide +kernel⟩

/-! ### .xyz and .xy -/

theorem xyz_join {Q : Type} (f : Option UInt8 → Bytes → Option UInt8 × Except XyzError Q) (est : Bytes → Option UInt8) (x y : List Bytes)
    (hest : ∀ l, f none l = match est l with | none => (none, .error .EstimateDelimiter) | some d => f (some d) l)
    (hkeep : ∀ d l, (f (some d) l).1 = some d)
    (hxy : ∀ l ∈ x.head?, ∀ l' ∈ y.head?, ∃ d, est l = some d ∧ est l' = some d) :
    drain (XyzIter.next f) ((x ++ y).length + 1) ⟨x ++ y, false, 0, none⟩ =
      joinResult x.length (drain (XyzIter.next f) (x.length + 1) ⟨x, false, 0, none⟩)
        fun pts => andThen pts (drain (XyzIter.next f) (y.length + 1) ⟨y, false, 0, none⟩) := by
  rw [← andThen_join]
  refine drain_join (next := XyzIter.next f) (fun s => ⟨s.lines ++ y, s.isDone, s.iLine, s.delim⟩) (fun s => s.lines.length) y.length
    (fun s => s.isDone = false ∧ s.iLine + s.lines.length = x.length ∧ (s.delim = none → s.lines = x) ∧
      ∀ d, s.delim = some d → ∃ l, l ∈ x.head? ∧ est l = some d) _
    ?_ ?_ ?_ (x.length + 1) ((x ++ y).length + 1) ⟨x, false, 0, none⟩ (by simp) (by simp) (by simp)
  · rintro ⟨ls, d, i, de⟩ e s' ⟨rfl, -, -, -⟩ h
    cases ls with
    | nil => simp [XyzIter.next] at h
    | cons l ls =>
      simp only [XyzIter.next, Bool.false_eq_true, if_false, List.cons_append] at h ⊢
      rcases hf : f de l with ⟨d', e' | q⟩
      · rw [hf] at h; cases h; exact ⟨_, rfl⟩
      · rw [hf] at h; cases h
  · rintro ⟨ls, d, i, de⟩ z s' ⟨rfl, hi, h1, h2⟩ h
    cases ls with
    | nil => simp [XyzIter.next] at h
    | cons l ls =>
      simp only [XyzIter.next, Bool.false_eq_true, if_false, List.cons_append] at h ⊢
      rcases hf : f de l with ⟨d', e' | q⟩
      · rw [hf] at h; cases h
      · rw [hf] at h
        cases h
        have hd' : ∃ d, d' = some d ∧ ∃ l, l ∈ x.head? ∧ est l = some d := by
          cases de with
          | some d =>
            have := hkeep d l
            rw [hf] at this
            exact ⟨d, this, h2 d rfl⟩
          | none =>
            have hx := h1 rfl
            dsimp only at hx
            have e1 := hest l
            cases he : est l with
            | none => rw [he, hf] at e1; cases e1
            | some d =>
              rw [he, hf] at e1
              dsimp only at e1
              have := hkeep d l
              rw [← e1] at this
              exact ⟨d, this, l, by rw [← hx]; rfl, he⟩
        obtain ⟨d, rfl, hd⟩ := hd'
        refine ⟨rfl, ⟨rfl, ?_, fun h => (by cases h), fun d2 h => by cases h; exact hd⟩, by simp⟩
        dsimp only [List.length_cons] at hi ⊢
        omega
  · rintro ⟨ls, d, i, de⟩ s' ⟨rfl, hi, h1, h2⟩ h N hN
    have hls : ls = [] := by
      cases ls with
      | nil => rfl
      | cons l ls =>
        simp only [XyzIter.next, Bool.false_eq_true, if_false] at h
        rcases hf : f de l with ⟨d', e' | q⟩ <;> rw [hf] at h <;> cases h
    subst hls
    simp only [List.length_nil, Nat.add_zero] at hi
    generalize x.length = k at *
    subst hi
    dsimp only [List.nil_append]
    refine drain_later (next := XyzIter.next f) i (fun s t => s.isDone = false ∧ t.lines = s.lines ∧ t.isDone = false ∧ t.iLine = s.iLine + i ∧
        (t.delim = s.delim ∨ (s.delim = none ∧ ∃ d, t.delim = some d ∧ ∀ l ∈ s.lines.head?, est l = some d)))
      (fun s => s.lines.length) ?_ ?_ ?_ (y.length + 1) N ⟨y, false, 0, none⟩ _ ⟨rfl, rfl, rfl, by simp, ?_⟩ (by simp) (by simpa using hN)
    · rintro ⟨ls1, d, i', de⟩ ⟨ls, d', i2, de'⟩ s' ⟨e1, e2, e3, e4, hde⟩ h
      dsimp only at e1 e2 e3 e4
      subst e1 e2 e3 e4
      cases ls with
      | nil => exact ⟨_, rfl⟩
      | cons l ls =>
        simp only [XyzIter.next, Bool.false_eq_true, if_false] at h
        rcases hf : f de l with ⟨d', e' | q⟩ <;> rw [hf] at h <;> cases h
    · rintro ⟨ls1, d, i', de⟩ ⟨ls, d', i2, de'⟩ e s' ⟨e1, e2, e3, e4, hde⟩ h
      dsimp only at e1 e2 e3 e4
      subst e1 e2 e3 e4
      cases ls with
      | nil => simp [XyzIter.next] at h
      | cons l ls =>
        have hff : f de' l = f de l := by
          rcases hde with hde | ⟨hde, d, hde', hd⟩
          · exact congrArg (fun z => f z l) hde
          · dsimp only at hde hde' hd
            subst hde hde'
            rw [hest l, hd l rfl]
        simp only [XyzIter.next, Bool.false_eq_true, if_false] at h ⊢
        rw [hff]
        rcases hf : f de l with ⟨d', e' | q⟩
        · rw [hf] at h; cases h
          exact ⟨_, by simp only [later]; rw [Nat.add_right_comm]⟩
        · rw [hf] at h; cases h
    · rintro ⟨ls1, d, i', de⟩ ⟨ls, d', i2, de'⟩ z s' ⟨e1, e2, e3, e4, hde⟩ h
      dsimp only at e1 e2 e3 e4
      subst e1 e2 e3 e4
      cases ls with
      | nil => simp [XyzIter.next] at h
      | cons l ls =>
        have hff : f de' l = f de l := by
          rcases hde with hde | ⟨hde, d, hde', hd⟩
          · exact congrArg (fun z => f z l) hde
          · dsimp only at hde hde' hd
            subst hde hde'
            rw [hest l, hd l rfl]
        simp only [XyzIter.next, Bool.false_eq_true, if_false] at h ⊢
        rw [hff]
        rcases hf : f de l with ⟨d', e' | q⟩
        · rw [hf] at h; cases h
        · rw [hf] at h; cases h
          exact ⟨by simp, _, rfl, rfl, rfl, rfl, by dsimp only; omega, .inl rfl⟩
    · cases de with
      | none => exact .inl rfl
      | some d =>
        refine .inr ⟨rfl, d, rfl, fun l' hl' => ?_⟩
        obtain ⟨l, hl, he⟩ := h2 d rfl
        obtain ⟨d2, e1, e2⟩ := hxy l hl l' hl'
        rw [he] at e1
        cases e1
        exact e2

/-- both files hold no line, or their first lines have the same delimiter, where `n` occurrences are needed -/
def Spec.SameDelimiter (n : Nat) (a b : Bytes) : Prop :=
  ∀ l ∈ (lines a).head?, ∀ l' ∈ (lines b).head?, ∃ d, estimateDelimiter n l = some d ∧ estimateDelimiter n l' = some d

/-- **C122**, .xyz and .xy: with the same delimiter, the points of a joined file are those of the first and then those of the second.
Missing: files with different delimiters, see `c122_violated_xyz`. -/
theorem c122_xyz_partial (T : FloatText α) (a b : Bytes) (h : EndsLine a) :
    (SameDelimiter 2 a b →
      loadXyz T (a ++ b) = joinResult (lines a).length (loadXyz T a) fun pts => andThen pts (loadXyz T b)) ∧
    (SameDelimiter 1 a b →
      loadXy T (a ++ b) = joinResult (lines a).length (loadXy T a) fun pts => andThen pts (loadXy T b)) := by
  constructor
  · intro hd
    simp only [loadXyz, XyzIter.new, lines_cut a b h]
    refine xyz_join (xyzFetchOne T) (estimateDelimiter 2) _ _ (fun l => ?_) (fun d l => rfl) hd
    simp only [xyzFetchOne]
    cases estimateDelimiter 2 l <;> rfl
  · intro hd
    simp only [loadXy, XyzIter.new, lines_cut a b h]
    refine xyz_join (xyFetchOne T) (estimateDelimiter 1) _ _ (fun l => ?_) (fun d l => rfl) hd
    simp only [xyFetchOne]
    cases estimateDelimiter 1 l <;> rfl

/-- two such files, the second with an error in its second line -/
example : EndsLine b!"1;2;3\n4;5;6\n" ∧ SameDelimiter 2 b!"1;2;3\n4;5;6\n" b!"7;8;9\n7;8\n" ∧
    loadXyz natText (b!"1;2;3\n4;5;6\n" ++ b!"7;8;9\n7;8\n") = some ([⟨1, 2, 3⟩, ⟨4, 5, 6⟩, ⟨7, 8, 9⟩], .error (.line 4 b!"7;8" .Vertex)) := by
  refine ⟨.inr ⟨b!"1;2;3\n4;5;6", rfl⟩, ?_, by decide +kernel⟩
  intro l hl l' hl'
  have e1 : (lines b!"1;2;3\n4;5;6\n").head? = some b!"1;2;3" := by decide +kernel
  have e2 : (lines b!"7;8;9\n7;8\n").head? = some b!"7;8;9" := by decide +kernel
  rw [e1] at hl
  rw [e2] at hl'
  cases hl
  cases hl'
  exact ⟨59, by decide +kernel, by decide +kernel⟩

/-- C122 fails for .xyz files that use different delimiters: both load, the joined one does not. -/
theorem c122_violated_xyz : ∃ a b : Bytes, EndsLine a ∧ loadXyz natText a = some ([⟨1, 2, 3⟩], .ok ()) ∧
    loadXyz natText b = some ([⟨4, 5, 6⟩], .ok ()) ∧ loadXyz natText (a ++ b) = some ([⟨1, 2, 3⟩], .error (.line 2 b!"4;5;6" .Vertex)) :=
  ⟨b!"1 2 3\n", b!"4;5;6\n", .inr ⟨b!"1 2 3", rfl⟩, by decide +kernel, by decide +kernel, by decide +kernel⟩

/-! ### .pts -/

/-- the lines are `n` points and then complete blocks of points -/
inductive Spec.PtsComplete (T : FloatText α) : Nat → List Bytes → Prop
  | done : PtsComplete T 0 []
  | point {n : Nat} {l : Bytes} {ls : List Bytes} {p : Point3D α} : VertexWords T l p → PtsComplete T n ls → PtsComplete T (n + 1) (l :: ls)
  | block {n : Nat} {l : Bytes} {ls : List Bytes} : CountWord l n → PtsComplete T n ls → PtsComplete T 0 (l :: ls)

/-- the lines of a file that are not empty -/
def Spec.filled (a : Bytes) : List Bytes := (lines a).filter fun l => !l.isEmpty

theorem ptsNext_empty (T : FloatText α) {l : Bytes} (hl : l.isEmpty = true) (ls : List Bytes) (i : Nat) (nv : Option Nat) (na : Nat) :
    ptsNext T ⟨l :: ls, false, i, nv, na⟩ = ptsNext T ⟨ls, false, i + 1, nv, na⟩ := by
  simp only [ptsNext, Bool.false_eq_true, if_false, ptsLoop, hl, if_true]

theorem ptsNext_line (T : FloatText α) {l : Bytes} (hl : l.isEmpty = false) (ls : List Bytes) (i : Nat) (nv : Option Nat) (na : Nat) :
    ptsNext T ⟨l :: ls, false, i, nv, na⟩ = ptsLine T l ⟨ls, false, i + 1, nv, na⟩ := by
  simp only [ptsNext, Bool.false_eq_true, if_false, ptsLoop, hl]

theorem pts_complete (T : FloatText α) (x : List Bytes) (n i : Nat) (nv : Option Nat) (na : Nat)
    (h : PtsComplete T n (x.filter fun l => !l.isEmpty)) (hn : nv.getD 0 - na = n) (h0 : nv = none → na = 0) :
    ∃ pts nv' na', nv'.getD 0 - na' = 0 ∧ (nv' = none → na' = 0) ∧ ∀ (y : List Bytes) (N : Nat) (m : List (Point3D α)), x.length + y.length < N →
      ∃ N', y.length < N' ∧ forEach (fun s => some (ptsNext T s)) pushItem N ⟨x ++ y, false, i, nv, na⟩ m =
        forEach (fun s => some (ptsNext T s)) pushItem N' ⟨y, false, i + x.length, nv', na'⟩ (m ++ pts) := by
  induction x generalizing n i nv na with
  | nil =>
    cases h with
    | done => exact ⟨[], nv, na, hn, h0, fun y N m hN => ⟨N, by simpa using hN, by simp⟩⟩
  | cons l x ih =>
    cases hl : l.isEmpty with
    | true =>
      obtain ⟨pts, nv', na', h1, h2, h3⟩ := ih n (i + 1) nv na (by simpa [hl] using h) hn h0
      refine ⟨pts, nv', na', h1, h2, fun y N m hN => ?_⟩
      obtain ⟨N', h4, h5⟩ := h3 y N m (by simp at hN; omega)
      refine ⟨N', h4, ?_⟩
      rw [show i + (l :: x).length = i + 1 + x.length by simp; omega, ← h5]
      cases N with
      | zero => rfl
      | succ N =>
        rw [forEach, forEach, List.cons_append, ptsNext_empty T hl]
    | false =>
      have hf : (l :: x).filter (fun l => !l.isEmpty) = l :: x.filter fun l => !l.isEmpty := by simp [hl]
      rw [hf] at h
      have step : ∀ (it : Item (Point3D α)) (nv1 : Option Nat) (na1 n1 : Nat),
          (∀ ls, ptsLine T l ⟨ls, false, i + 1, nv, na⟩ = (some (.ok it), ⟨ls, false, i + 1, nv1, na1⟩)) →
          PtsComplete T n1 (x.filter fun l => !l.isEmpty) → nv1.getD 0 - na1 = n1 → (nv1 = none → na1 = 0) →
          ∃ pts nv' na', nv'.getD 0 - na' = 0 ∧ (nv' = none → na' = 0) ∧ ∀ (y : List Bytes) (N : Nat) (m : List (Point3D α)),
            (l :: x).length + y.length < N → ∃ N', y.length < N' ∧
              forEach (fun s => some (ptsNext T s)) pushItem N ⟨l :: x ++ y, false, i, nv, na⟩ m =
                forEach (fun s => some (ptsNext T s)) pushItem N' ⟨y, false, i + (l :: x).length, nv', na'⟩ (m ++ pts) := by
        intro it nv1 na1 n1 hst h1 h2 h3
        obtain ⟨pts, nv', na', h4, h5, h6⟩ := ih n1 (i + 1) nv1 na1 h1 h2 h3
        have hpush : ∃ q, ∀ m : List (Point3D α), pushItem (ε := LineInfo PtsError) m it = (m ++ q, .ok ()) := by
          cases it with
          | data p => exact ⟨[p], fun m => rfl⟩
          | face a b c => exact ⟨[], fun m => by simp [pushItem]⟩
          | reserve a b => exact ⟨[], fun m => by simp [pushItem]⟩
        obtain ⟨q, hq⟩ := hpush
        refine ⟨q ++ pts, nv', na', h4, h5, fun y N m hN => ?_⟩
        obtain ⟨N, rfl⟩ : ∃ M, N = M + 1 := ⟨N - 1, by omega⟩
        obtain ⟨N', h7, h8⟩ := h6 y N (m ++ q) (by simp at hN; omega)
        refine ⟨N', h7, ?_⟩
        rw [show i + (l :: x).length = i + 1 + x.length by simp; omega, ← List.append_assoc, ← h8, forEach, List.cons_append,
          ptsNext_line T hl, hst]
        dsimp only
        rw [hq]
      cases h with
      | @point n _ _ p hp hrest =>
        have hv := (vertexWords_iff (e := PtsError.Vertex)).2 hp
        cases nv with
        | none => simp at hn
        | some k =>
          simp only [Option.getD_some] at hn
          refine step (.data p) (some k) (na + 1) n (fun ls => ?_) hrest (by simp; omega) (fun h => by cases h)
          simp only [ptsLine, if_pos (show na < k by omega), hv]
      | @block n _ _ hc hrest =>
        have hv := countWord_iff.2 hc
        cases nv with
        | none =>
          refine step (.reserve n 0) (some n) na n (fun ls => ?_) hrest (by simp [h0 rfl]) (fun h => by cases h)
          simp only [ptsLine, hv]
        | some k =>
          simp only [Option.getD_some] at hn
          refine step (.reserve n 0) (some n) 0 n (fun ls => ?_) hrest (by simp) (fun h => by cases h)
          simp only [ptsLine, if_neg (show ¬na < k by omega), hv]

/-- the same, `k` lines later, or after complete blocks instead of at the start -/
def PtsLater (k : Nat) (s t : PtsIter) : Prop :=
  s.isDone = false ∧ t.lines = s.lines ∧ t.isDone = false ∧ t.iLine = s.iLine + k ∧
    ((t.nVertices = s.nVertices ∧ t.nVerticesAdded = s.nVerticesAdded) ∨
      (s.nVertices = none ∧ s.nVerticesAdded = 0 ∧ t.nVertices.getD 0 - t.nVerticesAdded = 0 ∧ (t.nVertices = none → t.nVerticesAdded = 0)))

theorem ptsNext_later (T : FloatText α) (k : Nat) (ls : List Bytes) (i : Nat) (nv nv' : Option Nat) (na na' : Nat)
    (h : (nv' = nv ∧ na' = na) ∨ (nv = none ∧ na = 0 ∧ nv'.getD 0 - na' = 0 ∧ (nv' = none → na' = 0))) :
    (∀ s', ptsNext T ⟨ls, false, i, nv, na⟩ = (none, s') → ∃ t, ptsNext T ⟨ls, false, i + k, nv', na'⟩ = (none, t)) ∧
    (∀ e s', ptsNext T ⟨ls, false, i, nv, na⟩ = (some (.error e), s') →
      ∃ t, ptsNext T ⟨ls, false, i + k, nv', na'⟩ = (some (.error (later k e)), t)) ∧
    (∀ x s', ptsNext T ⟨ls, false, i, nv, na⟩ = (some (.ok x), s') → s'.lines.length < ls.length ∧
      ∃ t, ptsNext T ⟨ls, false, i + k, nv', na'⟩ = (some (.ok x), t) ∧ PtsLater k s' t) := by
  induction ls generalizing i with
  | nil => simp [ptsNext, ptsLoop]
  | cons l ls ih =>
    cases hl : l.isEmpty with
    | true =>
      obtain ⟨h1, h2, h3⟩ := ih (i + 1)
      rw [ptsNext_empty T hl, ptsNext_empty T hl, Nat.add_right_comm]
      refine ⟨h1, h2, fun x s' h => ?_⟩
      obtain ⟨h4, h5⟩ := h3 x s' h
      exact ⟨by simp; omega, h5⟩
    | false =>
      rw [ptsNext_line T hl, ptsNext_line T hl]
      have ei : i + k + 1 = i + 1 + k := by omega
      rcases h with ⟨rfl, rfl⟩ | ⟨rfl, rfl, h1, h2⟩
      · unfold ptsLine
        dsimp only
        cases nv' with
        | none =>
          dsimp only
          cases nthNum parseNat (toWords l) 0 with
          | none => simp [later, ei]
          | some c => simp [PtsLater, ei]
        | some c =>
          dsimp only
          by_cases hc : na' < c
          · simp only [if_pos hc]
            rcases vertexOf T PtsError.Vertex (toWords l) with e | p
            · simp [later, ei]
            · simp [PtsLater, ei]
          · simp only [if_neg hc]
            cases nthNum parseNat (toWords l) 0 with
            | none => simp [later, ei]
            | some c => simp [PtsLater, ei]
      · unfold ptsLine
        dsimp only
        cases nv' with
        | none =>
          dsimp only
          rw [h2 rfl]
          cases nthNum parseNat (toWords l) 0 with
          | none => simp [later, ei]
          | some c => simp [PtsLater, ei]
        | some c =>
          simp only [Option.getD_some] at h1
          simp only [if_neg (show ¬na' < c by omega)]
          cases nthNum parseNat (toWords l) 0 with
          | none => simp [later, ei]
          | some c => simp [PtsLater, ei]

/-- **C122**, .pts: if the blocks of the first file are complete, the points of a joined file are those of the first and then those of
the second. Missing: files with a block that is not complete, see `c122_violated_pts`. -/
theorem c122_pts_partial (T : FloatText α) (a b : Bytes) (h : EndsLine a) (hc : PtsComplete T 0 (filled a)) :
    ∃ pts, loadPts T a = some (pts, .ok ()) ∧
      loadPts T (a ++ b) = joinResult (lines a).length (loadPts T a) fun pts => andThen pts (loadPts T b) := by
  unfold loadPts
  rw [lines_cut a b h]
  unfold filled at hc
  generalize lines a = x at *
  generalize lines b = y
  obtain ⟨pts, nv, na, h1, h2, h3⟩ := pts_complete T x 0 0 none 0 hc rfl (fun _ => rfl)
  have ha : forEach (fun s => some (ptsNext T s)) pushItem (x.length + 1) ⟨x, false, 0, none, 0⟩ [] = some (pts, .ok ()) := by
    obtain ⟨N, hN, e⟩ := h3 [] (x.length + 1) [] (by simp)
    rw [List.append_nil] at e
    rw [e]
    obtain ⟨N, rfl⟩ : ∃ M, N = M + 1 := ⟨N - 1, by omega⟩
    simp [forEach, ptsNext, ptsLoop]
  refine ⟨pts, ha, ?_⟩
  rw [ha]
  obtain ⟨N, hN, e⟩ := h3 y ((x ++ y).length + 1) [] (by simp)
  rw [e, Nat.zero_add, List.nil_append]
  have hb := forEach_later (next := fun s => some (ptsNext T s)) (push := pushItem) x.length (pushItem_later x.length) (PtsLater x.length)
    (fun s => s.lines.length) (by intro s t _ h; cases h) ?_ ?_ ?_ (y.length + 1) N ⟨y, false, 0, none, 0⟩ ⟨y, false, x.length, nv, na⟩
    ([] : List (Point3D α)) ⟨rfl, rfl, rfl, by simp, .inr ⟨rfl, rfl, h1, h2⟩⟩ (by simp) (by simpa using hN)
  · have hpre := forEach_before (next := fun s => some (ptsNext T s)) pts N ⟨y, false, x.length, nv, na⟩ []
    rw [List.append_nil] at hpre
    rw [hpre, hb]
    simp only [joinResult, onOk, andThen, Option.map_map]
    rfl
  · rintro ⟨ls, d, i, nv, na⟩ ⟨ls', d', i', nv', na'⟩ s' ⟨e1, e2, e3, e4, e5⟩ h
    dsimp only at e1 e2 e3 e4 e5
    subst e1 e2 e3 e4
    simp only [Option.some.injEq] at h ⊢
    exact (ptsNext_later T x.length _ i nv nv' na na' e5).1 s' h
  · rintro ⟨ls, d, i, nv, na⟩ ⟨ls', d', i', nv', na'⟩ z s' ⟨e1, e2, e3, e4, e5⟩ h
    dsimp only at e1 e2 e3 e4 e5
    subst e1 e2 e3 e4
    simp only [Option.some.injEq] at h ⊢
    exact (ptsNext_later T x.length _ i nv nv' na na' e5).2.1 z s' h
  · rintro ⟨ls, d, i, nv, na⟩ ⟨ls', d', i', nv', na'⟩ z s' ⟨e1, e2, e3, e4, e5⟩ h
    dsimp only at e1 e2 e3 e4 e5
    subst e1 e2 e3 e4
    simp only [Option.some.injEq] at h ⊢
    exact (ptsNext_later T x.length _ i nv nv' na na' e5).2.2 z s' h

/-- a file of two blocks, one of them empty, followed by one with an error -/
example : EndsLine b!"1\n1 2 3\n0\n\n" ∧ PtsComplete natText 0 (filled b!"1\n1 2 3\n0\n\n") ∧
    loadPts natText (b!"1\n1 2 3\n0\n\n" ++ b!"1\n4 5 6\nx\n") = some ([⟨1, 2, 3⟩, ⟨4, 5, 6⟩], .error (.line 7 b!"x" .VertexCount)) := by
  refine ⟨.inr ⟨b!"1\n1 2 3\n0\n", rfl⟩, ?_, by decide +kernel⟩
  have : filled b!"1\n1 2 3\n0\n\n" = [b!"1", b!"1 2 3", b!"0"] := by decide +kernel
  rw [this]
  refine .block (n := 1) (countWord_iff.1 (by decide +kernel)) (.point (p := ⟨1, 2, 3⟩)
    ((vertexWords_iff (e := PtsError.Vertex)).1 (by decide +kernel)) (.block (n := 0) (countWord_iff.1 (by decide +kernel)) .done))

/-- C122 fails for .pts files with a block that is not complete: both load, the joined one does not. -/
theorem c122_violated_pts : ∃ a b : Bytes, EndsLine a ∧ loadPts natText a = some ([⟨1, 2, 3⟩], .ok ()) ∧
    loadPts natText b = some ([⟨4, 5, 6⟩], .ok ()) ∧ loadPts natText (a ++ b) = some ([⟨1, 2, 3⟩], .error (.line 3 b!"1" .Vertex)) :=
  ⟨b!"2\n1 2 3\n", b!"1\n4 5 6\n", .inr ⟨b!"2\n1 2 3", rfl⟩, by decide +kernel, by decide +kernel, by decide +kernel⟩

/-! ### .ptx -/

theorem ptxBadHead_later {T : FloatText α} {ls : List Bytes} {i : Nat} {e : LineInfo PtxError} (k : Nat) (h : PtxBadHead T ls i e) :
    PtxBadHead T ls (i + k) (later k e) := by
  obtain ⟨j, hj, h1, ⟨h2, rfl⟩ | ⟨l, h2, h3, rfl⟩⟩ := h
  · exact ⟨j, hj, h1, .inl ⟨h2, by simp only [later]; rw [Nat.add_right_comm]⟩⟩
  · exact ⟨j, hj, h1, .inr ⟨l, h2, h3, by simp only [later]; congr 1; omega⟩⟩

theorem ptxFile_later [Scalar α] {T : FloatText α} {i : Nat} {ls : List Bytes} {pts : List (Point3D α)}
    {out : Panics (Except (LineInfo PtxError) Unit)} (k : Nat) (h : PtxFile T i ls pts out) : PtxFile T (i + k) ls pts (out.map (laterResult k)) := by
  induction h with
  | eof => exact .eof
  | @columns i l rest h =>
    have := PtxFile.columns (T := T) (i := i + k) (l := l) (rest := rest) h
    rw [Nat.add_right_comm] at this
    exact this
  | @header i c l rest e h1 h2 =>
    have := ptxBadHead_later k h2
    rw [Nat.add_right_comm] at this
    exact .header h1 this
  | overflow h1 h2 => exact .overflow h1 h2
  | @cut i c r hd body m ps h1 h2 h3 h4 =>
    have := PtxFile.cut (i := i + k) h1 h2 h3 h4
    rw [show i + k + 10 + body.length = i + 10 + body.length + k by omega] at this
    exact this
  | @point i c r hd body rest bad m ps h1 h2 h3 h4 h5 =>
    have := PtxFile.point (i := i + k) (rest := rest) h1 h2 h3 h4 h5
    rw [show i + k + 10 + body.length + 1 = i + 10 + body.length + 1 + k by omega] at this
    exact this
  | @scan i c r hd body rest m ps more out h1 h2 h3 h4 _ ih =>
    rw [show i + 10 + body.length + k = i + k + 10 + body.length by omega] at ih
    exact .scan h1 h2 h3 h4 ih

theorem ptxFile_append [Scalar α] {T : FloatText α} {i : Nat} {x : List Bytes} {px : List (Point3D α)}
    {r : Panics (Except (LineInfo PtxError) Unit)} (h : PtxFile T i x px r) (hr : r = some (.ok ()))
    {y : List Bytes} {py : List (Point3D α)} {out : Panics (Except (LineInfo PtxError) Unit)} (hy : PtxFile T (i + x.length) y py out) :
    PtxFile T i (x ++ y) (px ++ py) out := by
  induction h with
  | eof => simpa using hy
  | columns => cases hr
  | header => cases hr
  | overflow => cases hr
  | cut => cases hr
  | point => cases hr
  | @scan i c r hd body rest m ps more out' h1 h2 h3 h4 _ ih =>
    have hlen : hd.length = 10 := by
      obtain ⟨_, _, _, _, _, _, _, _, _, _, rfl, _⟩ := h1
      rfl
    have := ih hr (by
      rw [show i + (hd ++ (body ++ rest)).length = i + 10 + body.length + rest.length by simp; omega] at hy
      exact hy)
    have := PtxFile.scan h1 h2 h3 h4 this
    rw [List.append_assoc, List.append_assoc, List.append_assoc]
    exact this

/-- **C122**, .ptx: if the first file can be loaded, the points of a joined file are those of the first and then those of the second. -/
theorem c122_ptx [Scalar α] (T : FloatText α) (a b : Bytes) (h : EndsLine a) (pts : List (Point3D α)) (ha : loadPtx T a = some (pts, .ok ())) :
    loadPtx T (a ++ b) = joinResult (lines a).length (loadPtx T a) fun pts => andThen pts (loadPtx T b) := by
  obtain ⟨px, ox, hx⟩ := (c82_exact T a).1
  obtain ⟨py, oy, hy⟩ := (c82_exact T b).1
  have ex := (c82_exact T a).2 _ _ hx
  have ey := (c82_exact T b).2 _ _ hy
  rw [ha] at ex
  cases ox with
  | none => cases ex
  | some ox =>
    simp only [Option.map_some, Option.some.injEq, Prod.mk.injEq] at ex
    obtain ⟨rfl, rfl⟩ := ex
    have hj := ptxFile_append hx rfl (ptxFile_later (lines a).length hy)
    rw [← lines_cut a b h] at hj
    rw [(c82_exact T (a ++ b)).2 _ _ hj, ha, ey]
    cases oy <;> simp [joinResult, onOk, andThen]

/-- a scan of one point; the second file breaks off -/
def exampleJoinScan : Bytes := b!"1\n1\n0 0 0\n1 0 0\n0 1 0\n0 0 1\n1 0 0 0\n0 1 0 0\n0 0 1 0\n0 0 0 1\n1 2 3 50\n"

example : EndsLine exampleJoinScan ∧ loadPtx natF64 exampleJoinScan = some ([⟨f 1, f 2, f 3⟩], .ok ()) ∧
    loadPtx natF64 (exampleJoinScan ++ b!"1\n") = some ([⟨f 1, f 2, f 3⟩], .error (.index 12 .LoadFileEndReached)) ∧
    loadPtx natF64 b!"1\n" = some ([], .error (.index 1 .LoadFileEndReached)) :=
  ⟨.inr ⟨exampleJoinScan.dropLast, by decide +kernel⟩, by decide +kernel, by decide +kernel, by decide +kernel⟩

/-! ### .gcode -/

/-- the state after a program -/
def Spec.gend [Add α] (s : GState α) (cs : List (GCmd α)) : GState α := cs.foldl (fun s c => (gstep s c).1) s

theorem grun_append [Add α] (s : GState α) (x y : List (GCmd α)) : grun s (x ++ y) = grun s x ++ grun (gend s x) y := by
  induction x generalizing s with
  | nil => rfl
  | cons c x ih => simp only [List.cons_append, grun, ih, gend, List.foldl_cons, List.append_assoc]

/-- what is loaded of lines is determined -/
theorem gLoaded_unique [Add α] {T : FloatText α} {ls : List Bytes} : ∀ {i : Nat} {s : GState α} {p p' : List (Point3D α)}
    {r r' : Except (LineInfo GcodeError) Unit}, GLoaded T ls i s p r → GLoaded T ls i s p' r' → p = p' ∧ r = r' := by
  induction ls with
  | nil =>
    rintro i s p p' r r' ⟨good, cmds, rest, e, h1, rfl, h2⟩ ⟨good', cmds', rest', e', h1', rfl, h2'⟩
    obtain ⟨rfl, rfl⟩ := List.append_eq_nil_iff.1 e.symm
    obtain ⟨rfl, rfl⟩ := List.append_eq_nil_iff.1 e'.symm
    cases h1
    cases h1'
    rcases h2 with ⟨-, rfl⟩ | ⟨_, _, h, _⟩
    · rcases h2' with ⟨-, rfl⟩ | ⟨_, _, h, _⟩
      · exact ⟨rfl, rfl⟩
      · cases h
    · cases h
  | cons l ls ih =>
    have key : ∀ {i : Nat} {s : GState α} {p : List (Point3D α)} {r : Except (LineInfo GcodeError) Unit}, GLoaded T (l :: ls) i s p r →
        (GBad T l ∧ p = [] ∧ r = .error (.line (i + 1) l .Command)) ∨
        ∃ c p1, GLine T l c ∧ GLoaded T ls (i + 1) (gstep s c).1 p1 r ∧ p = (gstep s c).2.toList ++ p1 := by
      rintro i s p r ⟨good, cmds, rest, e, h1, rfl, h2⟩
      cases h1 with
      | nil =>
        rcases h2 with ⟨rfl, -⟩ | ⟨bad, rest', rfl, hb, rfl⟩
        · cases e
        · cases e
          exact .inl ⟨hb, rfl, rfl⟩
      | @cons g c good cmds hg hgs =>
        cases e
        refine .inr ⟨c, _, hg, ⟨good, cmds, rest, rfl, hgs, rfl, ?_⟩, rfl⟩
        rcases h2 with h2 | ⟨bad, rest', rfl, hb, rfl⟩
        · exact .inl h2
        · exact .inr ⟨bad, rest', rfl, hb, by rw [List.length_cons, show i + (good.length + 1) + 1 = i + 1 + good.length + 1 by omega]⟩
    intro i s p p' r r' h h'
    rcases key h with ⟨hb, rfl, rfl⟩ | ⟨c, p1, hc, hl, rfl⟩
    · rcases key h' with ⟨-, rfl, rfl⟩ | ⟨c, p1, hc, hl, rfl⟩
      · exact ⟨rfl, rfl⟩
      · rcases c69_line T l with ⟨_, _, _, hn⟩ | ⟨_, hn⟩
        · exact absurd hb hn
        · exact absurd hc (hn c)
    · rcases key h' with ⟨hb, rfl, rfl⟩ | ⟨c', p1', hc', hl', rfl⟩
      · rcases c69_line T l with ⟨_, _, _, hn⟩ | ⟨_, hn⟩
        · exact absurd hb hn
        · exact absurd hc (hn c)
      · have ec : c = c' := by
          rcases c69_line T l with ⟨d, _, hu, _⟩ | ⟨_, hn⟩
          · rw [hu c hc, hu c' hc']
          · exact absurd hc (hn c)
        subst ec
        obtain ⟨rfl, rfl⟩ := ih hl hl'
        exact ⟨rfl, rfl⟩

/-- **C122**, G-code: if all lines of the first file are understood and the machine is back at the origin with absolute positions after
them, the positions of a joined file are those of the first and then those of the second.
Missing: files that end elsewhere, see `c122_violated_gcode`; the state goes on there. -/
theorem c122_gcode_partial [Add α] (T : FloatText α) (zero : α) (a b : Bytes) (h : EndsLine a) (cs : List (GCmd α))
    (ha : List.Forall₂ (GLine T) (lines a) cs) (hs : gend ⟨false, ⟨zero, zero, zero⟩⟩ cs = ⟨false, ⟨zero, zero, zero⟩⟩) :
    loadGcode T zero a = some (grun ⟨false, ⟨zero, zero, zero⟩⟩ cs, .ok ()) ∧
      loadGcode T zero (a ++ b) = joinResult (lines a).length (loadGcode T zero a) fun pts => andThen pts (loadGcode T zero b) := by
  obtain ⟨px, rx, ex, hx⟩ := c69_run_partial T zero a
  obtain ⟨py, ry, ey, hy⟩ := c69_run_partial T zero b
  obtain ⟨pz, rz, ez, hz⟩ := c69_run_partial T zero (a ++ b)
  have hx' : GLoaded T (lines a) 0 ⟨false, ⟨zero, zero, zero⟩⟩ (grun ⟨false, ⟨zero, zero, zero⟩⟩ cs) (.ok ()) :=
    ⟨lines a, cs, [], by simp, ha, rfl, .inl ⟨rfl, rfl⟩⟩
  obtain ⟨rfl, rfl⟩ := gLoaded_unique hx hx'
  obtain ⟨good, cmds, rest, e, h1, rfl, h2⟩ := hy
  have hz' : GLoaded T (lines (a ++ b)) 0 ⟨false, ⟨zero, zero, zero⟩⟩
      (grun ⟨false, ⟨zero, zero, zero⟩⟩ cs ++ grun ⟨false, ⟨zero, zero, zero⟩⟩ cmds) (laterResult (lines a).length ry) := by
    refine ⟨lines a ++ good, cs ++ cmds, rest, ?_, List.rel_append ha h1, by rw [grun_append, hs], ?_⟩
    · rw [lines_cut a b h, e, List.append_assoc]
    · rcases h2 with ⟨rfl, rfl⟩ | ⟨bad, rest', rfl, hb, rfl⟩
      · exact .inl ⟨rfl, rfl⟩
      · exact .inr ⟨bad, rest', rfl, hb, by
          simp only [laterResult, later, List.length_append]
          rw [show 0 + good.length + 1 + (lines a).length = 0 + ((lines a).length + good.length) + 1 by omega]⟩
  obtain ⟨rfl, rfl⟩ := gLoaded_unique hz hz'
  exact ⟨ex, by rw [ez, ex, ey]; rfl⟩

/-- a program that returns to the origin -/
example : EndsLine b!"G1 X1 Y2\nG1 X0 Y0\n" ∧ List.Forall₂ (GLine natText) (lines b!"G1 X1 Y2\nG1 X0 Y0\n")
      [.move ⟨some 1, some 2, none⟩, .move ⟨some 0, some 0, none⟩] ∧
    gend ⟨false, ⟨0, 0, 0⟩⟩ [.move ⟨some 1, some 2, none⟩, .move ⟨some 0, some 0, none⟩] = (⟨false, ⟨0, 0, 0⟩⟩ : GState Nat) ∧
    loadGcode natText 0 (b!"G1 X1 Y2\nG1 X0 Y0\n" ++ b!"G1 Z5\nG1 Xa\n") =
      some ([⟨1, 2, 0⟩, ⟨0, 0, 0⟩, ⟨0, 0, 5⟩], .error (.line 4 b!"G1 Xa" .Command)) := by
  refine ⟨.inr ⟨b!"G1 X1 Y2\nG1 X0 Y0", rfl⟩, ?_, rfl, by decide +kernel⟩
  have e : lines b!"G1 X1 Y2\nG1 X0 Y0\n" = [b!"G1 X1 Y2", b!"G1 X0 Y0"] := by decide +kernel
  rw [e]
  exact .cons ⟨b!"X1 Y2", ⟨by decide, .inl rfl⟩, gcodeCommand_iff.1 (by decide +kernel)⟩
    (.cons ⟨b!"X0 Y0", ⟨by decide, .inl rfl⟩, gcodeCommand_iff.1 (by decide +kernel)⟩ .nil)

/-- C122 fails for G-code: the second file starts where the first one ended. -/
theorem c122_violated_gcode : ∃ a b : Bytes, EndsLine a ∧ loadGcode natText 0 a = some ([⟨1, 2, 3⟩], .ok ()) ∧
    loadGcode natText 0 b = some ([⟨5, 0, 0⟩], .ok ()) ∧ loadGcode natText 0 (a ++ b) = some ([⟨1, 2, 3⟩, ⟨5, 2, 3⟩], .ok ()) :=
  ⟨b!"G1 X1 Y2 Z3\n", b!"G1 X5\n", .inr ⟨b!"G1 X1 Y2 Z3", rfl⟩, by decide +kernel, by decide +kernel, by decide +kernel⟩

/-! ### .stl -/

/-- C122 fails for text .stl files: whatever follows the first `endsolid` is ignored. A file of several solids, each of which can be
loaded, loads as the first one. -/
theorem c122_violated_stl (T : FloatText F64) (format : StlFormat) (hf : format ≠ .Binary) (name : Bytes) (hname : (10 : UInt8) ∉ name)
    (text : Bytes) (facets : List Bytes) (l : Bytes) (fs : List (StlFace StlPoint)) (ht : lines text = facets ++ [l]) (hfs : Facets T facets fs)
    (hl : Keyword b!"endsolid" l) (he : EndsLine text) (b : Bytes) :
    loadStlTriplets T (b!"solid" ++ (name ++ [10] ++ text) ++ b) format [] [] = some ((fs.flatMap corners, fs.map StlFace.n), .ok ()) := by
  have key : StlFile T (b!"solid" ++ (name ++ [10] ++ (text ++ b))) format fs (.ok ()) := by
    refine .inr ⟨b!"solid", _, rfl, rfl, .inl ⟨by cases format <;> simp_all, name ++ [10], text ++ b, rfl, .inl ⟨name, rfl, hname⟩, ?_⟩⟩
    rw [lines_cut text b he, ht, List.append_assoc]
    simpa using stlText_facets (T := T) hfs 1 (fun i => .endsolid (ls := lines b) hl)
  have := ((c63_loaders T _ format).2 _ _ key).1 [] []
  simpa [List.append_assoc] using this

/-- two solids of a triangle each -/
def exampleSolid : Bytes := b!"solid x\nfacet normal 0 0 1\nouter loop\nvertex 0 0 0\nvertex 1 0 0\nvertex 0 1 0\nendloop\nendfacet\nendsolid x\n"

example : ∃ ps ns, loadStlTriplets natF64 exampleSolid .Auto [] [] = some ((ps, ns), .ok ()) ∧ ps.length = 3 ∧
    loadStlTriplets natF64 (exampleSolid ++ exampleSolid) .Auto [] [] = some ((ps, ns), .ok ()) :=
  ⟨[⟨f 0, f 0, f 0⟩, ⟨f 1, f 0, f 0⟩, ⟨f 0, f 1, f 0⟩], [⟨f 0, f 0, f 1⟩], by decide +kernel, rfl, by decide +kernel⟩

/-- it meets the hypotheses of `c122_violated_stl` -/
example : ∃ text facets l fs, exampleSolid = b!"solid" ++ (b!" x" ++ [10] ++ text) ∧ lines text = facets ++ [l] ∧ Facets natF64 facets fs ∧
    fs.length = 1 ∧ Keyword b!"endsolid" l ∧ EndsLine text := by
  refine ⟨b!"facet normal 0 0 1\nouter loop\nvertex 0 0 0\nvertex 1 0 0\nvertex 0 1 0\nendloop\nendfacet\nendsolid x\n",
    [b!"facet normal 0 0 1", b!"outer loop", b!"vertex 0 0 0", b!"vertex 1 0 0", b!"vertex 0 1 0", b!"endloop", b!"endfacet"] ++ [],
    b!"endsolid x", [⟨⟨f 0, f 0, f 0⟩, ⟨f 1, f 0, f 0⟩, ⟨f 0, f 1, f 0⟩, ⟨f 0, f 0, f 1⟩⟩], by decide +kernel, by decide +kernel,
    .cons ⟨rfl, ?_, ?_, ?_, ?_, ?_⟩ .nil, rfl, keyword_iff.2 (by decide),
    .inr ⟨b!"facet normal 0 0 1\nouter loop\nvertex 0 0 0\nvertex 1 0 0\nvertex 0 1 0\nendloop\nendfacet\nendsolid x", by decide +kernel⟩⟩
  · intro k l h
    match k with
    | 0 => cases h; exact keyword_iff.2 (by decide)
    | 1 => cases h; exact keyword_iff.2 (by decide)
    | 2 => cases h; exact ⟨⟨f 0, f 0, f 0⟩, stlVertex_iff.1 (by decide +kernel)⟩
    | 3 => cases h; exact ⟨⟨f 1, f 0, f 0⟩, stlVertex_iff.1 (by decide +kernel)⟩
    | 4 => cases h; exact ⟨⟨f 0, f 1, f 0⟩, stlVertex_iff.1 (by decide +kernel)⟩
    | 5 => cases h; exact keyword_iff.2 (by decide)
    | 6 => cases h; exact keyword_iff.2 (by decide)
    | k + 7 => simp at h
  · intro l h; cases h; exact stlNormal_iff.1 (by decide +kernel)
  · intro l h; cases h; exact stlVertex_iff.1 (by decide +kernel)
  · intro l h; cases h; exact stlVertex_iff.1 (by decide +kernel)
  · intro l h; cases h; exact stlVertex_iff.1 (by decide +kernel)

end R3D

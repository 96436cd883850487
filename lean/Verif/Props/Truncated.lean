import Verif.Props.Off
import Verif.Props.Ptx
import Verif.Props.Obj
import Verif.Props.Gcode
import Verif.Props.Xyz
/-!
# C119: the beginning of a file loads as the beginning of what the whole file loads as

Text files are cut behind a line break. What the cut file loads as is the beginning of what the whole file loads as, and an
error that the cut file shows (other than its end being reached) is shown by the whole file as well.
-/
namespace R3D
open Spec

namespace Spec

/-- the bytes end behind a line break (or there are none) -/
def EndsLine (s : Bytes) : Prop := s = [] ∨ ∃ c, s = c ++ [10]

/-- how the results of the cut and of the whole file relate: less data, in the same order; `cut e` are the errors that say that
the file ended too early, any other error is final -/
def BeginsLike {μ ε : Type} (le : μ → μ → Prop) (cut : ε → Prop) (a b : μ × Except ε Unit) : Prop :=
  le a.1 b.1 ∧ ∀ e, a.2 = .error e → cut e ∨ b = a

/-- a mesh whose vertices and faces are the first ones of another mesh -/
def MeshBegins {P : Type} (a b : TMesh P) : Prop := a.verts <+: b.verts ∧ a.faces <+: b.faces

end Spec

section
variable {σ ε α μ : Type}

/-- running an iterator on less and on more data -/
theorem forEach_begins {le : μ → μ → Prop} (hrefl : ∀ m, le m m) (htrans : ∀ a b c, le a b → le b c → le a c)
    {R : σ → σ → Prop} {cut : ε → Prop} {next : σ → Panics (Option (Except ε α) × σ)} {push : μ → α → μ × Except ε Unit}
    (hpush : ∀ m x, le m (push m x).1)
    (hok : ∀ s t x s', R s t → next s = some (some (.ok x), s') → ∃ t', next t = some (some (.ok x), t') ∧ R s' t')
    (herr : ∀ s t e s', R s t → next s = some (some (.error e), s') → cut e ∨ ∃ t', next t = some (some (.error e), t'))
    (n k : Nat) (s t : σ) (m : μ) (hR : R s t) (a b : μ × Except ε Unit)
    (ha : forEach next push n s m = some a) (hb : forEach next push k t m = some b) : BeginsLike le cut a b := by
  have hgrow : ∀ (k : Nat) (t : σ) (m : μ) (b : μ × Except ε Unit), forEach next push k t m = some b → le m b.1 := by
    intro k
    induction k with
    | zero => intro t m b h; cases h
    | succ k ih =>
      intro t m b h
      unfold forEach at h
      split at h
      · cases h
      · cases h; exact hrefl _
      · cases h; exact hrefl _
      · rename_i x t' _
        split at h
        · rename_i m' hp
          have := hpush m x
          rw [hp] at this
          exact htrans _ _ _ this (ih _ _ _ h)
        · rename_i m' e hp
          cases h
          have := hpush m x
          rwa [hp] at this
  induction n generalizing k s t m with
  | zero => cases ha
  | succ n ih =>
    cases k with
    | zero => cases hb
    | succ k =>
      have hm := hgrow _ _ _ _ hb
      unfold forEach at ha
      split at ha
      · cases ha
      · cases ha
        exact ⟨hm, fun e he => by cases he⟩
      · rename_i e s' hn
        cases ha
        refine ⟨hm, fun e' he => ?_⟩
        cases he
        rcases herr s t e s' hR hn with h | ⟨t', h⟩
        · exact .inl h
        · right
          unfold forEach at hb
          rw [h] at hb
          cases hb
          rfl
      · rename_i x s' hn
        obtain ⟨t', h, hR'⟩ := hok s t x s' hR hn
        unfold forEach at hb
        rw [h] at hb
        dsimp only at hb
        split at ha
        · rename_i m' hp
          rw [hp] at hb
          exact ih k s' t' m' hR' ha hb
        · rename_i m' e hp
          rw [hp] at hb
          cases ha
          cases hb
          exact ⟨hrefl _, fun _ _ => .inr rfl⟩

theorem drain_eq_forEach (next : σ → Option (Except ε α) × σ) (n : Nat) (s : σ) (l : List α) :
    (drain next n s).map (fun r => (l ++ r.1, r.2)) = forEach (fun s => some (next s)) (fun l x => (l ++ [x], .ok ())) n s l := by
  induction n generalizing s l with
  | zero => rfl
  | succ n ih =>
    unfold drain forEach
    rcases h : next s with ⟨_ | (e | x), s'⟩
    · simp
    · simp
    · simp only [← ih, Option.map_map]
      congr 1
      funext r
      simp

theorem drain_begins {R : σ → σ → Prop} {cut : ε → Prop} {next : σ → Option (Except ε α) × σ}
    (hok : ∀ s t x s', R s t → next s = (some (.ok x), s') → ∃ t', next t = (some (.ok x), t') ∧ R s' t')
    (herr : ∀ s t e s', R s t → next s = (some (.error e), s') → cut e ∨ ∃ t', next t = (some (.error e), t'))
    (n k : Nat) (s t : σ) (hR : R s t) (a b : List α × Except ε Unit)
    (ha : drain next n s = some a) (hb : drain next k t = some b) : BeginsLike (· <+: ·) cut a b := by
  have ea := drain_eq_forEach next n s []
  have eb := drain_eq_forEach next k t []
  rw [ha] at ea
  rw [hb] at eb
  refine forEach_begins (R := R) (cut := cut) (next := fun s => some (next s)) (push := fun l x => (l ++ [x], .ok ()))
    (fun m => List.prefix_refl m) (fun _ _ _ h1 h2 => h1.trans h2)
    (fun m x => List.prefix_append _ _) ?_ ?_ n k s t [] hR a b ?_ ?_
  · intro s t x s' h1 h2
    simp only [Option.some.injEq] at h2 ⊢
    exact hok s t x s' h1 h2
  · intro s t e s' h1 h2
    simp only [Option.some.injEq] at h2 ⊢
    exact herr s t e s' h1 h2
  · simpa using ea.symm
  · simpa using eb.symm

theorem pushItem_begins {β : Type} (m : List (Point3D β)) (x : Item (Point3D β)) :
    m <+: (pushItem (ε := ε) m x).1 := by
  cases x <;> simp [pushItem]
end

theorem MeshBegins.refl {P : Type} (m : TMesh P) : MeshBegins m m := ⟨List.prefix_refl _, List.prefix_refl _⟩
theorem MeshBegins.trans {P : Type} (a b c : TMesh P) (h1 : MeshBegins a b) (h2 : MeshBegins b c) : MeshBegins a c :=
  ⟨h1.1.trans h2.1, h1.2.trans h2.2⟩
theorem MeshBegins.addVertex {P : Type} (m : TMesh P) (p : P) : MeshBegins m (m.addVertex p).1 :=
  ⟨List.prefix_append _ _, List.prefix_refl _⟩
theorem MeshBegins.tryAddConnection {P : Type} (m : TMesh P) (a b c : Nat) : MeshBegins m (m.tryAddConnection a b c).1 := by
  unfold TMesh.tryAddConnection
  split_ifs
  all_goals first
    | exact MeshBegins.refl _
    | exact ⟨List.prefix_refl _, List.prefix_append _ _⟩

theorem rawLines_cut (a b : Bytes) (h : EndsLine a) : rawLines (a ++ b) = rawLines a ++ rawLines b := by
  induction a with
  | nil => rfl
  | cons x s ih =>
    by_cases hx : x = 10
    · have hs : EndsLine s := by
        rcases h with h | ⟨c, h⟩
        · cases h
        · cases c with
          | nil => left; simpa using (List.cons.inj h).2
          | cons y c => right; exact ⟨c, (List.cons.inj h).2⟩
      simp [rawLines, hx, ih hs]
    · have hs : EndsLine s ∧ s ≠ [] := by
        rcases h with h | ⟨c, h⟩
        · cases h
        · cases c with
          | nil => exact absurd (List.cons.inj h).1 hx
          | cons y c => exact ⟨.inr ⟨c, (List.cons.inj h).2⟩, by rw [(List.cons.inj h).2]; simp⟩
      have hne : rawLines s ≠ [] := by
        rw [rawLines_step, if_neg hs.2]; simp
      simp only [List.cons_append, rawLines, hx, if_false, ih hs.1]
      cases hr : rawLines s with
      | nil => exact absurd hr hne
      | cons l ls => rfl

theorem lines_cut (a b : Bytes) (h : EndsLine a) : lines (a ++ b) = lines a ++ lines b := by
  simp [lines, rawLines_cut a b h]

section
variable {α : Type}

/-! ### .xyz and .xy -/

theorem xyz_begins {P : Type} (f : Option UInt8 → Bytes → Option UInt8 × Except XyzError P) (x y : List Bytes)
    (a b : List P × Except (LineInfo XyzError) Unit) (n k : Nat)
    (ha : drain (XyzIter.next f) n ⟨x, false, 0, none⟩ = some a)
    (hb : drain (XyzIter.next f) k ⟨x ++ y, false, 0, none⟩ = some b) : BeginsLike (· <+: ·) (fun _ => False) a b := by
  refine drain_begins (R := fun s t => t.lines = s.lines ++ y ∧ t.isDone = s.isDone ∧ t.iLine = s.iLine ∧ t.delim = s.delim)
    ?_ ?_ n k _ _ ⟨rfl, rfl, rfl, rfl⟩ a b ha hb
  · rintro ⟨l, d, i, de⟩ ⟨l', d', i', de'⟩ x s' ⟨h1, h2, h3, h4⟩ h
    dsimp only at h1 h2 h3 h4
    subst h1 h2 h3 h4
    unfold XyzIter.next at h ⊢
    dsimp only at h ⊢
    split at h
    · cases h
    · rename_i hd
      rw [if_neg hd]
      cases l with
      | nil => cases h
      | cons l ls =>
        simp only [List.cons_append]
        dsimp only at h
        rcases hf : f de' l with ⟨d2, e | p⟩
        · rw [hf] at h; cases h
        · rw [hf] at h
          cases h
          exact ⟨_, rfl, rfl, rfl, rfl, rfl⟩
  · rintro ⟨l, d, i, de⟩ ⟨l', d', i', de'⟩ e s' ⟨h1, h2, h3, h4⟩ h
    dsimp only at h1 h2 h3 h4
    subst h1 h2 h3 h4
    right
    unfold XyzIter.next at h ⊢
    dsimp only at h ⊢
    split at h
    · cases h
    · rename_i hd
      rw [if_neg hd]
      cases l with
      | nil => cases h
      | cons l ls =>
        simp only [List.cons_append]
        dsimp only at h
        rcases hf : f de' l with ⟨d2, e | p⟩
        · rw [hf] at h
          cases h
          exact ⟨_, rfl⟩
        · rw [hf] at h; cases h

/-- C119 for .xyz and .xy: the points of the cut file are the first points of the whole file; an error in the cut file is the
error of the whole file, and the points are the same then. -/
theorem c119_xyz (T : FloatText α) (a b : Bytes) (h : EndsLine a) :
    (∀ x y, loadXyz T a = some x → loadXyz T (a ++ b) = some y → BeginsLike (· <+: ·) (fun _ => False) x y) ∧
    (∀ x y, loadXy T a = some x → loadXy T (a ++ b) = some y → BeginsLike (· <+: ·) (fun _ => False) x y) := by
  constructor
  · intro x y hx hy
    simp only [loadXyz, XyzIter.new, lines_cut a b h] at hx hy
    exact xyz_begins _ _ _ _ _ _ _ hx hy
  · intro x y hx hy
    simp only [loadXy, XyzIter.new, lines_cut a b h] at hx hy
    exact xyz_begins _ _ _ _ _ _ _ hx hy

/-! ### .obj -/

theorem objPointsLoop_begins (T : FloatText α) (y ls : List Bytes) (i : Nat) (r : Except (LineInfo ObjError) (Point3D α)) (s' : LineIter)
    (h : objPointsLoop T ls i = (some r, s')) :
    objPointsLoop T (ls ++ y) i = (some r, { s' with lines := s'.lines ++ y }) := by
  induction ls generalizing i with
  | nil => cases h
  | cons l ls ih =>
    simp only [List.cons_append]
    unfold objPointsLoop at h ⊢
    split at h
    · rename_i hv
      rw [if_pos hv]
      split at h <;> (cases h; simp [*])
    · rename_i hv
      rw [if_neg hv]
      exact ih _ h

theorem objMeshLoop_begins (T : FloatText α) (y ls : List Bytes) (i : Nat) (r : Except (LineInfo ObjError) (Item (Point3D α)))
    (s' : LineIter) (h : objMeshLoop T ls i = some (some r, s')) :
    objMeshLoop T (ls ++ y) i = some (some r, { s' with lines := s'.lines ++ y }) := by
  induction ls generalizing i with
  | nil => cases h
  | cons l ls ih =>
    simp only [List.cons_append]
    unfold objMeshLoop at h ⊢
    split at h
    · rename_i hv
      rw [if_pos hv]
      split at h <;> (cases h; simp [*])
    · rename_i hv
      rw [if_neg hv]
      split at h
      · rename_i hf
        rw [if_pos hf]
        split at h <;> (cases h; try simp [*])
      · rename_i hf
        rw [if_neg hf]
        exact ih _ h

theorem objPush_begins (m : TMesh (Point3D α)) (x : Item (Point3D α)) : MeshBegins m (objPush m x).1 := by
  cases x with
  | data p => exact MeshBegins.addVertex m p
  | face a b c =>
    have h := MeshBegins.tryAddConnection m a b c
    unfold objPush
    dsimp only
    split <;> (rename_i hq; rw [hq] at h; exact h)
  | reserve _ _ => exact MeshBegins.refl m

/-- C119 for .obj: points and meshes. Where the mesh loader panics (vertex number 0) nothing is said. -/
theorem c119_obj (T : FloatText α) (a b : Bytes) (h : EndsLine a) :
    (∀ x y, loadObjPoints T a = some x → loadObjPoints T (a ++ b) = some y → BeginsLike (· <+: ·) (fun _ => False) x y) ∧
    (∀ m x y, loadObjMesh T a m = some x → loadObjMesh T (a ++ b) m = some y → BeginsLike MeshBegins (fun _ => False) x y) := by
  constructor
  · intro x y hx hy
    simp only [loadObjPoints, lines_cut a b h] at hx hy
    refine drain_begins (R := fun s t => t = { s with lines := s.lines ++ lines b }) ?_ ?_ _ _ _ _ rfl x y hx hy
    · rintro s t x s' rfl h
      unfold objPointsNext at h ⊢
      dsimp only
      split at h
      · cases h
      · rename_i hd
        rw [if_neg hd]
        exact ⟨_, objPointsLoop_begins T _ _ _ _ _ h, rfl⟩
    · rintro s t e s' rfl h
      unfold objPointsNext at h ⊢
      dsimp only
      split at h
      · cases h
      · rename_i hd
        rw [if_neg hd]
        exact .inr ⟨_, objPointsLoop_begins T _ _ _ _ _ h⟩
  · intro m x y hx hy
    simp only [loadObjMesh, lines_cut a b h] at hx hy
    refine forEach_begins MeshBegins.refl MeshBegins.trans (R := fun s t => t = { s with lines := s.lines ++ lines b })
      objPush_begins ?_ ?_ _ _ _ _ m rfl x y hx hy
    · rintro s t x s' rfl h
      unfold objMeshNext at h ⊢
      dsimp only
      split at h
      · cases h
      · rename_i hd
        rw [if_neg hd]
        exact ⟨_, objMeshLoop_begins T _ _ _ _ _ h, rfl⟩
    · rintro s t e s' rfl h
      unfold objMeshNext at h ⊢
      dsimp only
      split at h
      · cases h
      · rename_i hd
        rw [if_neg hd]
        exact .inr ⟨_, objMeshLoop_begins T _ _ _ _ _ h⟩

/-! ### .off -/

theorem offMeshLine_more (T : FloatText α) (y : List Bytes) (l : Bytes) (s : OffMeshIter) :
    offMeshLine T l { s with lines := s.lines ++ y } =
      ((offMeshLine T l s).1, { (offMeshLine T l s).2 with lines := (offMeshLine T l s).2.lines ++ y }) := by
  unfold offMeshLine
  dsimp only
  split
  · split <;> rfl
  · split <;> split <;> rfl

theorem offPointsLine_more (T : FloatText α) (y : List Bytes) (l : Bytes) (s : OffMeshIter) :
    offPointsLine T l { s with lines := s.lines ++ y } =
      ((offPointsLine T l s).1, { (offPointsLine T l s).2 with lines := (offPointsLine T l s).2.lines ++ y }) := by
  unfold offPointsLine
  dsimp only
  split
  · split <;> rfl
  · split
    · split <;> rfl
    · rfl

theorem offMeshLoop_begins (T : FloatText α) (y ls : List Bytes) (s : OffMeshIter) (r : Except (LineInfo OffError) (Item (Point3D α)))
    (s' : OffMeshIter) (h : offMeshLoop T ls s = (some r, s')) :
    offMeshLoop T (ls ++ y) { s with lines := s.lines ++ y } = (some r, { s' with lines := s'.lines ++ y }) := by
  induction ls generalizing s with
  | nil => cases h
  | cons l ls ih =>
    simp only [List.cons_append]
    unfold offMeshLoop at h ⊢
    dsimp only at h ⊢
    split at h
    · rename_i hv
      rw [if_pos hv]
      exact ih _ h
    · rename_i hv
      rw [if_neg hv]
      split at h
      · rename_i hf
        rw [if_pos hf]
        exact ih _ h
      · rename_i hf
        rw [if_neg hf]
        have := offMeshLine_more T y l { s with lines := ls, iLine := s.iLine + 1 }
        rw [h] at this
        exact this

theorem offPointsLoop_begins (T : FloatText α) (y ls : List Bytes) (s : OffMeshIter) (r : Except (LineInfo OffError) (Item (Point3D α)))
    (s' : OffMeshIter) (h : offPointsLoop T ls s = (some r, s')) :
    offPointsLoop T (ls ++ y) { s with lines := s.lines ++ y } = (some r, { s' with lines := s'.lines ++ y }) := by
  induction ls generalizing s with
  | nil => cases h
  | cons l ls ih =>
    simp only [List.cons_append]
    unfold offPointsLoop at h ⊢
    dsimp only at h ⊢
    split at h
    · rename_i hv
      rw [if_pos hv]
      exact ih _ h
    · rename_i hv
      rw [if_neg hv]
      split at h
      · rename_i hf
        rw [if_pos hf]
        exact ih _ h
      · rename_i hf
        rw [if_neg hf]
        have := offPointsLine_more T y l { s with lines := ls, iLine := s.iLine + 1 }
        rw [h] at this
        exact this

theorem offPush_begins (m : TMesh (Point3D α)) (x : Item (Point3D α)) : MeshBegins m (offPush m x).1 := by
  cases x with
  | data p => exact MeshBegins.addVertex m p
  | face a b c =>
    have h := MeshBegins.tryAddConnection m a b c
    unfold offPush
    dsimp only
    split <;> (rename_i hq; rw [hq] at h; exact h)
  | reserve _ _ => exact MeshBegins.refl m

/-- C119 for .off: meshes and points -/
theorem c119_off (T : FloatText α) (a b : Bytes) (h : EndsLine a) :
    (∀ m x y, loadOffMesh T a m = some x → loadOffMesh T (a ++ b) m = some y → BeginsLike MeshBegins (fun _ => False) x y) ∧
    (∀ x y, loadOffPoints T a = some x → loadOffPoints T (a ++ b) = some y → BeginsLike (· <+: ·) (fun _ => False) x y) := by
  constructor
  · intro m x y hx hy
    simp only [loadOffMesh, lines_cut a b h] at hx hy
    refine forEach_begins MeshBegins.refl MeshBegins.trans (R := fun s t => t = { s with lines := s.lines ++ lines b })
      offPush_begins ?_ ?_ _ _ _ _ m rfl x y hx hy
    · rintro s t x s' rfl h
      simp only [Option.some.injEq] at h ⊢
      unfold offMeshNext at h ⊢
      dsimp only
      split at h
      · cases h
      · rename_i hd
        rw [if_neg hd]
        exact ⟨_, offMeshLoop_begins T _ _ _ _ _ h, rfl⟩
    · rintro s t e s' rfl h
      simp only [Option.some.injEq] at h ⊢
      unfold offMeshNext at h ⊢
      dsimp only
      split at h
      · cases h
      · rename_i hd
        rw [if_neg hd]
        exact .inr ⟨_, offMeshLoop_begins T _ _ _ _ _ h⟩
  · intro x y hx hy
    simp only [loadOffPoints, lines_cut a b h] at hx hy
    refine forEach_begins (fun m => List.prefix_refl m) (fun _ _ _ h1 h2 => h1.trans h2)
      (R := fun s t => t = { s with lines := s.lines ++ lines b })
      pushItem_begins ?_ ?_ _ _ _ _ [] rfl x y hx hy
    · rintro s t x s' rfl h
      simp only [Option.some.injEq] at h ⊢
      unfold offPointsNext at h ⊢
      dsimp only
      split at h
      · cases h
      · rename_i hd
        rw [if_neg hd]
        exact ⟨_, offPointsLoop_begins T _ _ _ _ _ h, rfl⟩
    · rintro s t e s' rfl h
      simp only [Option.some.injEq] at h ⊢
      unfold offPointsNext at h ⊢
      dsimp only
      split at h
      · cases h
      · rename_i hd
        rw [if_neg hd]
        exact .inr ⟨_, offPointsLoop_begins T _ _ _ _ _ h⟩

/-! ### .pts -/

theorem ptsLine_more (T : FloatText α) (y : List Bytes) (l : Bytes) (s : PtsIter) :
    ptsLine T l { s with lines := s.lines ++ y } =
      ((ptsLine T l s).1, { (ptsLine T l s).2 with lines := (ptsLine T l s).2.lines ++ y }) := by
  unfold ptsLine
  dsimp only
  split
  · split <;> rfl
  · split <;> split <;> rfl

theorem ptsLoop_begins (T : FloatText α) (y ls : List Bytes) (s : PtsIter) (r : Except (LineInfo PtsError) (Item (Point3D α)))
    (s' : PtsIter) (h : ptsLoop T ls s = (some r, s')) :
    ptsLoop T (ls ++ y) { s with lines := s.lines ++ y } = (some r, { s' with lines := s'.lines ++ y }) := by
  induction ls generalizing s with
  | nil => cases h
  | cons l ls ih =>
    simp only [List.cons_append]
    unfold ptsLoop at h ⊢
    dsimp only at h ⊢
    split at h
    · rename_i hv
      rw [if_pos hv]
      exact ih _ h
    · rename_i hv
      rw [if_neg hv]
      have := ptsLine_more T y l { s with lines := ls, iLine := s.iLine + 1 }
      rw [h] at this
      exact this

/-- C119 for .pts -/
theorem c119_pts (T : FloatText α) (a b : Bytes) (h : EndsLine a) (x y)
    (hx : loadPts T a = some x) (hy : loadPts T (a ++ b) = some y) : BeginsLike (· <+: ·) (fun _ => False) x y := by
  simp only [loadPts, lines_cut a b h] at hx hy
  refine forEach_begins (fun m => List.prefix_refl m) (fun _ _ _ h1 h2 => h1.trans h2)
    (R := fun s t => t = { s with lines := s.lines ++ lines b })
    pushItem_begins ?_ ?_ _ _ _ _ [] rfl x y hx hy
  · rintro s t x s' rfl h
    simp only [Option.some.injEq] at h ⊢
    unfold ptsNext at h ⊢
    dsimp only
    split at h
    · cases h
    · rename_i hd
      rw [if_neg hd]
      exact ⟨_, ptsLoop_begins T _ _ _ _ _ h, rfl⟩
  · rintro s t e s' rfl h
    simp only [Option.some.injEq] at h ⊢
    unfold ptsNext at h ⊢
    dsimp only
    split at h
    · cases h
    · rename_i hd
      rw [if_neg hd]
      exact .inr ⟨_, ptsLoop_begins T _ _ _ _ _ h⟩

/-! ### .gcode -/

theorem gcodeLoop_begins [Add α] (T : FloatText α) (y ls : List Bytes) (s : GcodeIter α)
    (r : Except (LineInfo GcodeError) (Point3D α)) (s' : GcodeIter α) (h : gcodeLoop T ls s = (some r, s')) :
    gcodeLoop T (ls ++ y) { s with lines := s.lines ++ y } = (some r, { s' with lines := s'.lines ++ y }) := by
  induction ls generalizing s with
  | nil => cases h
  | cons l ls ih =>
    simp only [List.cons_append]
    unfold gcodeLoop at h ⊢
    dsimp only at h ⊢
    split at h
    · split at h
      · rename_i h71
        rw [if_pos h71]
        split at h
        · rename_i hg
          rw [if_pos hg]
          split at h
          · cases h; rfl
          · split at h
            · rename_i hs
              rw [if_pos hs]
              cases h; rfl
            · rename_i hs
              rw [if_neg hs]
              exact ih _ h
        · rename_i hg
          rw [if_neg hg]
          split at h
          · rename_i h9
            rw [if_pos h9]
            split at h
            · rename_i h0
              rw [if_pos h0]
              exact ih _ h
            · rename_i h0
              rw [if_neg h0]
              split at h
              · rename_i h1
                rw [if_pos h1]
                exact ih _ h
              · rename_i h1
                rw [if_neg h1]
                split at h
                · rename_i h2
                  rw [if_pos h2]
                  split at h
                  · cases h; rfl
                  · split at h
                    · rename_i hs
                      rw [if_pos hs]
                      cases h; rfl
                    · rename_i hs
                      rw [if_neg hs]
                      exact ih _ h
                · rename_i h2
                  rw [if_neg h2]
                  exact ih _ h
          · rename_i h9
            rw [if_neg h9]
            exact ih _ h
      · rename_i h71
        rw [if_neg h71]
        exact ih _ h
    · exact ih _ h

/-- C119 for .gcode -/
theorem c119_gcode [Add α] (T : FloatText α) (zero : α) (a b : Bytes) (h : EndsLine a) (x y)
    (hx : loadGcode T zero a = some x) (hy : loadGcode T zero (a ++ b) = some y) : BeginsLike (· <+: ·) (fun _ => False) x y := by
  simp only [loadGcode, lines_cut a b h] at hx hy
  refine drain_begins (R := fun s t => t = { s with lines := s.lines ++ lines b }) ?_ ?_ _ _ _ _ rfl x y hx hy
  · rintro s t x s' rfl h
    unfold gcodeNext at h ⊢
    dsimp only
    split at h
    · cases h
    · rename_i hd
      rw [if_neg hd]
      exact ⟨_, gcodeLoop_begins T _ _ _ _ _ h, rfl⟩
  · rintro s t e s' rfl h
    unfold gcodeNext at h ⊢
    dsimp only
    split at h
    · cases h
    · rename_i hd
      rw [if_neg hd]
      exact .inr ⟨_, gcodeLoop_begins T _ _ _ _ _ h⟩

/-! ### .ptx -/

/-- the error that says that the file ended too early -/
def Spec.PtxCut : LineInfo PtxError → Prop
  | .index _ .LoadFileEndReached => True
  | _ => False

theorem ptxSkip_begins (y ls : List Bytes) (i : Nat) :
    (∀ r, ptxSkip ls i = .ok r → ptxSkip (ls ++ y) i = .ok (r ++ y)) ∧
    (∀ e, ptxSkip ls i = .error e → PtxCut e ∨ ptxSkip (ls ++ y) i = .error e) := by
  cases ls with
  | nil => exact ⟨fun r h => (by cases h), fun e h => by cases h; exact .inl trivial⟩
  | cons l ls => exact ⟨fun r h => (by cases h; rfl), fun e h => by cases h⟩

theorem ptxRows_begins (y ls : List Bytes) (i : Nat) :
    (∀ n r, ptxRows ls i = .ok (n, r) → ptxRows (ls ++ y) i = .ok (n, r ++ y)) ∧
    (∀ e, ptxRows ls i = .error e → PtxCut e ∨ ptxRows (ls ++ y) i = .error e) := by
  cases ls with
  | nil => exact ⟨fun n r h => (by cases h), fun e h => by cases h; exact .inl trivial⟩
  | cons l ls =>
    simp only [ptxRows, List.cons_append]
    split
    · exact ⟨fun n r h => (by cases h; rfl), fun e h => by cases h⟩
    · exact ⟨fun n r h => (by cases h), fun e h => by cases h; exact .inr rfl⟩

theorem ptxRow_begins (T : FloatText α) (y ls : List Bytes) (i : Nat) :
    (∀ n r, ptxRow T ls i = .ok (n, r) → ptxRow T (ls ++ y) i = .ok (n, r ++ y)) ∧
    (∀ e, ptxRow T ls i = .error e → PtxCut e ∨ ptxRow T (ls ++ y) i = .error e) := by
  cases ls with
  | nil => exact ⟨fun n r h => (by cases h), fun e h => by cases h; exact .inl trivial⟩
  | cons l ls =>
    simp only [ptxRow, List.cons_append]
    split
    · exact ⟨fun n r h => (by cases h; rfl), fun e h => by cases h⟩
    · exact ⟨fun n r h => (by cases h), fun e h => by cases h; exact .inr rfl⟩

theorem ptxHeader_begins (T : FloatText α) (y ls : List Bytes) (i : Nat) :
    (∀ n m r, ptxHeader T ls i = .ok (n, m, r) → ptxHeader T (ls ++ y) i = .ok (n, m, r ++ y)) ∧
    (∀ e, ptxHeader T ls i = .error e → PtxCut e ∨ ptxHeader T (ls ++ y) i = .error e) := by
  unfold ptxHeader
  simp only [bind, Except.bind, pure, Except.pure]
  rcases h0 : ptxRows ls i with e | ⟨rows, l0⟩
  · refine ⟨fun n m r h => (by cases h), fun e' h => ?_⟩
    cases h
    rcases (ptxRows_begins y ls i).2 e h0 with h | h
    · exact .inl h
    · rw [h]; exact .inr rfl
  rw [(ptxRows_begins y ls i).1 _ _ h0]
  dsimp only
  rcases h1 : ptxSkip l0 (i + 1) with e | l1
  · refine ⟨fun n m r h => (by cases h), fun e' h => ?_⟩
    cases h
    rcases (ptxSkip_begins y _ _).2 e h1 with h | h
    · exact .inl h
    · rw [h]; exact .inr rfl
  rw [(ptxSkip_begins y _ _).1 _ h1]
  dsimp only
  rcases h2 : ptxSkip l1 (i + 2) with e | l2
  · refine ⟨fun n m r h => (by cases h), fun e' h => ?_⟩
    cases h
    rcases (ptxSkip_begins y _ _).2 e h2 with h | h
    · exact .inl h
    · rw [h]; exact .inr rfl
  rw [(ptxSkip_begins y _ _).1 _ h2]
  dsimp only
  rcases h3 : ptxSkip l2 (i + 3) with e | l3
  · refine ⟨fun n m r h => (by cases h), fun e' h => ?_⟩
    cases h
    rcases (ptxSkip_begins y _ _).2 e h3 with h | h
    · exact .inl h
    · rw [h]; exact .inr rfl
  rw [(ptxSkip_begins y _ _).1 _ h3]
  dsimp only
  rcases h4 : ptxSkip l3 (i + 4) with e | l4
  · refine ⟨fun n m r h => (by cases h), fun e' h => ?_⟩
    cases h
    rcases (ptxSkip_begins y _ _).2 e h4 with h | h
    · exact .inl h
    · rw [h]; exact .inr rfl
  rw [(ptxSkip_begins y _ _).1 _ h4]
  dsimp only
  rcases h5 : ptxRow T l4 (i + 5) with e | ⟨r5, l5⟩
  · refine ⟨fun n m r h => (by cases h), fun e' h => ?_⟩
    cases h
    rcases (ptxRow_begins T y _ _).2 e h5 with h | h
    · exact .inl h
    · rw [h]; exact .inr rfl
  rw [(ptxRow_begins T y _ _).1 _ _ h5]
  dsimp only
  rcases h6 : ptxRow T l5 (i + 6) with e | ⟨r6, l6⟩
  · refine ⟨fun n m r h => (by cases h), fun e' h => ?_⟩
    cases h
    rcases (ptxRow_begins T y _ _).2 e h6 with h | h
    · exact .inl h
    · rw [h]; exact .inr rfl
  rw [(ptxRow_begins T y _ _).1 _ _ h6]
  dsimp only
  rcases h7 : ptxRow T l6 (i + 7) with e | ⟨r7, l7⟩
  · refine ⟨fun n m r h => (by cases h), fun e' h => ?_⟩
    cases h
    rcases (ptxRow_begins T y _ _).2 e h7 with h | h
    · exact .inl h
    · rw [h]; exact .inr rfl
  rw [(ptxRow_begins T y _ _).1 _ _ h7]
  dsimp only
  rcases h8 : ptxRow T l7 (i + 8) with e | ⟨r8, l8⟩
  · refine ⟨fun n m r h => (by cases h), fun e' h => ?_⟩
    cases h
    rcases (ptxRow_begins T y _ _).2 e h8 with h | h
    · exact .inl h
    · rw [h]; exact .inr rfl
  rw [(ptxRow_begins T y _ _).1 _ _ h8]
  exact ⟨fun n m r h => (by cases h; rfl), fun e h => by cases h⟩

/-- C119 for .ptx; the cut file may be reported to end too early -/
theorem c119_ptx [Scalar α] (T : FloatText α) (a b : Bytes) (h : EndsLine a) (x y)
    (hx : loadPtx T a = some x) (hy : loadPtx T (a ++ b) = some y) : BeginsLike (· <+: ·) PtxCut x y := by
  simp only [loadPtx, PtxIter.new, lines_cut a b h] at hx hy
  refine forEach_begins (fun m => List.prefix_refl m) (fun _ _ _ h1 h2 => h1.trans h2)
    (R := fun s t => t = { s with lines := s.lines ++ lines b })
    pushItem_begins ?_ ?_ _ _ _ _ [] rfl x y hx hy
  · rintro ⟨ls, d, i, n, mt, tr⟩ t x s' rfl h
    unfold ptxNext at h ⊢
    dsimp only at h ⊢
    split at h
    · cases h
    · rename_i hd
      rw [if_neg hd]
      split at h
      · rename_i hn
        rw [if_pos hn]
        cases ls with
        | nil => cases h
        | cons l ls =>
          dsimp only [List.cons_append] at h ⊢
          split at h
          · cases h
          · split at h
            · cases h
            · rename_i hh
              rw [(ptxHeader_begins T (lines b) ls _).1 _ _ _ hh]
              dsimp only
              split at h
              · rename_i hr
                rw [if_pos hr]
                cases h
                exact ⟨_, rfl, rfl⟩
              · cases h
      · rename_i hn
        rw [if_neg hn]
        cases ls with
        | nil => cases h
        | cons l ls =>
          dsimp only [List.cons_append] at h ⊢
          split at h
          · cases h
            exact ⟨_, rfl, rfl⟩
          · cases h
  · rintro ⟨ls, d, i, n, mt, tr⟩ t e s' rfl h
    unfold ptxNext at h ⊢
    dsimp only at h ⊢
    split at h
    · cases h
    · rename_i hd
      rw [if_neg hd]
      split at h
      · rename_i hn
        rw [if_pos hn]
        cases ls with
        | nil => cases h
        | cons l ls =>
          dsimp only [List.cons_append] at h ⊢
          split at h
          · cases h
            exact .inr ⟨_, rfl⟩
          · split at h
            · rename_i hh
              cases h
              rcases (ptxHeader_begins T (lines b) ls _).2 _ hh with h | h
              · exact .inl h
              · rw [h]
                exact .inr ⟨_, rfl⟩
            · split at h <;> cases h
      · rename_i hn
        rw [if_neg hn]
        cases ls with
        | nil => cases h; exact .inl trivial
        | cons l ls =>
          dsimp only [List.cons_append] at h ⊢
          split at h
          · cases h
          · cases h
            exact .inr ⟨_, rfl⟩
end

/-- a file with a malformed third line: cut behind the second line there are two points and no error, cut behind the third line
the result is that of the whole file -/
example : EndsLine b!"1 2 3\n4 5 6\n" ∧ EndsLine b!"1 2 3\n4 5 6\n7 8\n" ∧
    loadXyz natText b!"1 2 3\n4 5 6\n" = some ([⟨1, 2, 3⟩, ⟨4, 5, 6⟩], .ok ()) ∧
    loadXyz natText b!"1 2 3\n4 5 6\n7 8\n" = some ([⟨1, 2, 3⟩, ⟨4, 5, 6⟩], .error (.line 3 b!"7 8" .Vertex)) ∧
    loadXyz natText b!"1 2 3\n4 5 6\n7 8\n9 9 9\n" = some ([⟨1, 2, 3⟩, ⟨4, 5, 6⟩], .error (.line 3 b!"7 8" .Vertex)) :=
  ⟨.inr ⟨b!"1 2 3\n4 5 6", rfl⟩, .inr ⟨b!"1 2 3\n4 5 6\n7 8", rfl⟩, by decide +kernel, by decide +kernel, by decide +kernel⟩

/-- without the line break the last byte of the cut file is lost, and the last point is not the one of the whole file -/
theorem c119_violated : ∃ a b : Bytes, ∃ x y, loadXyz natText a = some x ∧ loadXyz natText (a ++ b) = some y ∧
    ¬ BeginsLike (· <+: ·) (fun _ => False) x y := by
  refine ⟨b!"1 2 33", b!"\n", ([⟨1, 2, 3⟩], .ok ()), ([⟨1, 2, 33⟩], .ok ()), by decide +kernel, by decide +kernel, ?_⟩
  rintro ⟨h, _⟩
  revert h
  decide

/-- a scan cut within its header: nothing but the error that the end is reached -/
example : loadPtx natF64 b!"1\n1\n0 0 0\n1 0 0\n" = some ([], .error (.index 4 .LoadFileEndReached)) ∧ PtxCut (.index 4 .LoadFileEndReached) :=
  ⟨by decide +kernel, trivial⟩

end R3D

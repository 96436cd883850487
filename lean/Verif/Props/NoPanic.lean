import Verif.Model.Reserve
import Verif.Props.Off
import Verif.Props.Ptx
import Verif.Props.Obj
import Verif.Props.Las
import Verif.Props.Ply
import Verif.Props.Gcode
import Verif.Props.StlUnique
import Verif.Props.Xyz
/-!
C96: loading an arbitrary file never panics.

False for the formats announcing numbers of elements (the numbers are given to `reserve` unchecked), for .obj (vertex number 0),
for .las (records of less than 12 bytes) and for .ply (a fourth coordinate). It is proved for the other formats, and that these are
the only causes.
-/
namespace R3D
open Spec
variable {α : Type}

/-! ### loops -/

/-- a loop with enough fuel ends without a result only for a panic of `next` or `reserve`, met with the invariant -/
theorem forEachR_cause {σ ε P M : Type} {next : σ → Panics (Option (Except ε (Item P)) × σ)} {reserve : M → Nat → Nat → Panics Unit}
    {push : M → Item P → M × Except ε Unit} {n : Nat} {s : σ} {m : M} (h : forEachR next reserve push n s m = none)
    (I : σ → M → Prop) (left : σ → Nat) (hn : left s < n) (hI : I s m)
    (hleft : ∀ s m a s', I s m → next s = some (some (.ok a), s') → left s' < left s)
    (hres : ∀ s m v f s', I s m → next s = some (some (.ok (.reserve v f)), s') → I s' m)
    (hpush : ∀ s m a s' m', I s m → next s = some (some (.ok a), s') → push m a = (m', .ok ()) → I s' m') :
    ∃ s m, I s m ∧ (next s = none ∨ ∃ v f s', next s = some (some (.ok (.reserve v f)), s') ∧ reserve m v f = none) := by
  induction n generalizing s m with
  | zero => omega
  | succ n ih =>
    rw [forEachR.eq_def] at h
    dsimp only at h
    split at h
    · rename_i e
      exact ⟨s, m, hI, .inl e⟩
    · simp at h
    · simp at h
    · rename_i v f s' e
      split at h
      · rename_i e2
        exact ⟨s, m, hI, .inr ⟨v, f, s', e, e2⟩⟩
      · exact ih h (by have := hleft s m _ s' hI e; omega) (hres s m v f s' hI e)
    · rename_i a s' _ e
      split at h
      · rename_i m' e2
        exact ih h (by have := hleft s m _ s' hI e; omega) (hpush s m a s' m' hI e e2)
      · simp at h

/-- reserving memory changes nothing else -/
theorem forEachR_forEach {σ ε P M : Type} {next : σ → Panics (Option (Except ε (Item P)) × σ)} {reserve : M → Nat → Nat → Panics Unit}
    {push : M → Item P → M × Except ε Unit} (hp : ∀ m v f, push m (.reserve v f) = (m, .ok ())) {r : M × Except ε Unit} :
    ∀ n s m, forEachR next reserve push n s m = some r → forEach next push n s m = some r := by
  intro n
  induction n with
  | zero => intro s m h; simp [forEachR] at h
  | succ n ih =>
    intro s m h
    rw [forEachR.eq_def] at h
    dsimp only at h
    rw [forEach]
    split at h
    · simp at h
    · rename_i e; rw [e]; exact h
    · rename_i e; rw [e]; exact h
    · rename_i v f s' e
      rw [e]
      dsimp only
      rw [hp]
      split at h
      · simp at h
      · exact ih _ _ h
    · rename_i a s' e
      rw [e]
      dsimp only
      split at h
      · rename_i e2; rw [e2]; exact ih _ _ h
      · rename_i e2; rw [e2]; exact h

theorem forEach_cause {σ ε α M : Type} {next : σ → Panics (Option (Except ε α) × σ)} {push : M → α → M × Except ε Unit}
    (I : σ → Prop) (left : σ → Nat) (hleft : ∀ s a s', I s → next s = some (some (.ok a), s') → left s' < left s ∧ I s') :
    ∀ n s m, left s < n → I s → forEach next push n s m = none → ∃ s, I s ∧ next s = none := by
  intro n
  induction n with
  | zero => intro s m h; omega
  | succ n ih =>
    intro s m hn hI h
    rw [forEach] at h
    split at h
    · rename_i e; exact ⟨s, hI, e⟩
    · simp at h
    · simp at h
    · rename_i a s' e
      split at h
      · exact ih _ _ (by have := (hleft s a s' hI e).1; omega) (hleft s a s' hI e).2 h
      · simp at h

/-! ### what is reserved -/

theorem vecReserve_none {size len n : Nat} : vecReserve size len n = none ↔ 2 ^ 63 ≤ (len + n) * size := by
  unfold vecReserve
  split_ifs with h <;> simp <;> omega

theorem reservePoints_none {P : Type} {l : List P} {n k : Nat} : reservePoints l n k = none ↔ 2 ^ 63 ≤ (l.length + n) * 24 := vecReserve_none

theorem reserveMesh_none {P : Type} {m : TMesh P} {n k : Nat} : reserveMesh m n k = none ↔
    2 ^ 63 ≤ (m.verts.length + n) * 24 ∨ 2 ^ 64 ≤ 3 * k ∨ 2 ^ 63 ≤ (3 * m.faces.length + 3 * k) * 8 := by
  unfold reserveMesh vecReserve
  split_ifs with h1 h2 h3 <;> simp <;> omega

/-! ### specification -/

/-- an announced number of elements that no memory holds: 2^57 points of 24 bytes are more than 2^61 bytes -/
def Spec.huge : Nat := 2 ^ 57

/-- the word is a number of at least `2^57` -/
def Spec.HugeWord (w : Bytes) : Prop := ∃ n, fromAscii parseNat w = some n ∧ huge ≤ n

/-- some line of the file contains such a word -/
def Spec.AnnouncesHuge (file : Bytes) : Prop := ∃ line ∈ lines file, ∃ w ∈ toWords line, HugeWord w

theorem nthNum_word {words : List Bytes} {k n : Nat} (h : nthNum parseNat words k = some n) : ∃ w ∈ words, fromAscii parseNat w = some n := by
  unfold nthNum at h
  obtain ⟨w, h1, h2⟩ := Option.bind_eq_some_iff.1 h
  exact ⟨w, List.mem_of_getElem? h1, h2⟩

/-! ### .off -/

theorem offMeshLine_lines (T : FloatText α) (line : Bytes) (s : OffMeshIter) : (offMeshLine T line s).2.lines = s.lines := by
  unfold offMeshLine
  repeat' split
  all_goals rfl

theorem offPointsLine_lines (T : FloatText α) (line : Bytes) (s : OffMeshIter) : (offPointsLine T line s).2.lines = s.lines := by
  unfold offPointsLine
  repeat' split
  all_goals rfl

theorem offMeshLoop_item (T : FloatText α) : ∀ (ls : List Bytes) (s : OffMeshIter) a s', offMeshLoop T ls s = (some (.ok a), s') →
    ∃ pre line s0, ls = pre ++ line :: s'.lines ∧ offMeshLine T line s0 = (some (.ok a), s')
  | [], s, a, s', h => by simp [offMeshLoop] at h
  | l :: ls, s, a, s', h => by
    rw [offMeshLoop] at h
    dsimp only at h
    split_ifs at h with h1 h2
    · obtain ⟨pre, line, s0, e, h3⟩ := offMeshLoop_item T ls _ a s' h
      exact ⟨l :: pre, line, s0, by rw [e]; rfl, h3⟩
    · obtain ⟨pre, line, s0, e, h3⟩ := offMeshLoop_item T ls _ a s' h
      exact ⟨l :: pre, line, s0, by rw [e]; rfl, h3⟩
    · refine ⟨[], l, _, ?_, h⟩
      have := offMeshLine_lines T l { s with lines := ls, iLine := s.iLine + 1 }
      rw [h] at this
      rw [List.nil_append, this]

theorem offPointsLoop_item (T : FloatText α) : ∀ (ls : List Bytes) (s : OffMeshIter) a s', offPointsLoop T ls s = (some (.ok a), s') →
    ∃ pre line s0, ls = pre ++ line :: s'.lines ∧ offPointsLine T line s0 = (some (.ok a), s')
  | [], s, a, s', h => by simp [offPointsLoop] at h
  | l :: ls, s, a, s', h => by
    rw [offPointsLoop] at h
    dsimp only at h
    split_ifs at h with h1 h2
    · obtain ⟨pre, line, s0, e, h3⟩ := offPointsLoop_item T ls _ a s' h
      exact ⟨l :: pre, line, s0, by rw [e]; rfl, h3⟩
    · obtain ⟨pre, line, s0, e, h3⟩ := offPointsLoop_item T ls _ a s' h
      exact ⟨l :: pre, line, s0, by rw [e]; rfl, h3⟩
    · refine ⟨[], l, _, ?_, h⟩
      have := offPointsLine_lines T l { s with lines := ls, iLine := s.iLine + 1 }
      rw [h] at this
      rw [List.nil_append, this]

theorem offMeshLine_reserve {T : FloatText α} {line : Bytes} {s s' : OffMeshIter} {v k : Nat}
    (h : offMeshLine T line s = (some (.ok (.reserve v k)), s')) :
    nthNum parseNat (toWords line) 0 = some v ∧ nthNum parseNat (toWords line) 1 = some k := by
  unfold offMeshLine at h
  split at h
  · split at h
    · rename_i v' k' e
      simp only [Prod.mk.injEq, Option.some.injEq, Except.ok.injEq, Item.reserve.injEq] at h
      obtain ⟨⟨rfl, rfl⟩, -⟩ := h
      unfold offFetchCounts at e
      split at e
      · simp at e
      · split at e
        · simp at e
        · simp only [Except.ok.injEq, Prod.mk.injEq] at e
          obtain ⟨rfl, rfl⟩ := e
          constructor <;> assumption
    · simp at h
  · split_ifs at h
    · split at h <;> simp at h
    · split at h <;> simp at h

theorem offPointsLine_reserve {T : FloatText α} {line : Bytes} {s s' : OffMeshIter} {v k : Nat}
    (h : offPointsLine T line s = (some (.ok (.reserve v k)), s')) : nthNum parseNat (toWords line) 0 = some v := by
  unfold offPointsLine at h
  split at h
  · split at h
    · rename_i n e
      simp only [Prod.mk.injEq, Option.some.injEq, Except.ok.injEq, Item.reserve.injEq] at h
      obtain ⟨⟨rfl, -⟩, -⟩ := h
      exact e
    · simp at h
  · split_ifs at h
    · split at h <;> simp at h
    · simp at h

/-- how much a step of a mesh loader adds -/
theorem meshPush_length {ε : Type} {push : TMesh (Point3D α) → Item (Point3D α) → TMesh (Point3D α) × Except ε Unit}
    (hd : ∀ m p, push m (.data p) = ((m.addVertex p).1, .ok ())) (hr : ∀ m v f, push m (.reserve v f) = (m, .ok ()))
    (hf : ∀ m a b c m', push m (.face a b c) = (m', .ok ()) → m' = (m.tryAddConnection a b c).1)
    {m m' : TMesh (Point3D α)} {a : Item (Point3D α)} (h : push m a = (m', .ok ())) :
    m'.verts.length + m'.faces.length ≤ m.verts.length + m.faces.length + 1 := by
  cases a with
  | data p =>
    rw [hd] at h
    simp only [Prod.mk.injEq, and_true] at h
    subst h
    simp [TMesh.addVertex]; omega
  | reserve v f =>
    rw [hr] at h
    simp only [Prod.mk.injEq, and_true] at h
    subst h
    omega
  | face a b c =>
    rw [hf _ _ _ _ _ h]
    unfold TMesh.tryAddConnection
    split_ifs
    all_goals simp
    all_goals omega

theorem offPush_face (m : TMesh (Point3D α)) (a b c : Nat) (m') (h : offPush m (.face a b c) = (m', .ok ())) :
    m' = (m.tryAddConnection a b c).1 := by
  simp only [offPush] at h
  split at h
  · rename_i e; rw [e]; simp only [Prod.mk.injEq, and_true] at h; exact h.symm
  · simp at h

theorem pushItem_length {ε : Type} {l l' : List (Point3D α)} {a : Item (Point3D α)} (h : (pushItem l a : _ × Except ε Unit) = (l', .ok ())) :
    l'.length ≤ l.length + 1 := by
  unfold pushItem at h
  split at h
  all_goals
    simp only [Prod.mk.injEq, and_true] at h
    subst h
    simp

/-- C96 for .off meshes: with a target and a file of less than 2^57 elements and lines, only an announced number of at least 2^57 lets
loading panic. -/
theorem c96_off_mesh_partial (T : FloatText α) (input : Bytes) (m : TMesh (Point3D α))
    (hm : m.verts.length + m.faces.length + (lines input).length < huge) (h : loadOffMeshR T input m = none) : AnnouncesHuge input := by
  unfold loadOffMeshR at h
  have step : ∀ s a s', some (offMeshNext T s) = some (some (.ok a), s') → ∃ pre line, OffMeshIter.lines s = pre ++ line :: s'.lines := by
    intro s a s' h
    simp only [Option.some.injEq] at h
    unfold offMeshNext at h
    split_ifs at h
    · simp at h
    · obtain ⟨pre, line, s0, e, -⟩ := offMeshLoop_item T _ _ _ _ h
      exact ⟨pre, line, e⟩
  refine (forEachR_cause h
    (fun (s : OffMeshIter) (m1 : TMesh (Point3D α)) => (∃ pre, lines input = pre ++ s.lines) ∧ m1.verts.length + m1.faces.length + s.lines.length < huge)
    (fun s => s.lines.length) (Nat.lt_succ_self _) ⟨⟨[], rfl⟩, hm⟩ ?_ ?_ ?_).elim ?_
  · intro s m a s' _ h
    obtain ⟨pre, line, e⟩ := step _ _ _ h
    simp [e]; omega
  · rintro s m v f s' ⟨⟨p0, h0⟩, hI⟩ h
    obtain ⟨pre, line, e⟩ := step _ _ _ h
    refine ⟨⟨p0 ++ pre ++ [line], by rw [h0, e]; simp⟩, ?_⟩
    simp only [e, List.length_append, List.length_cons] at hI
    omega
  · rintro s m a s' m' ⟨⟨p0, h0⟩, hI⟩ h hp
    obtain ⟨pre, line, e⟩ := step _ _ _ h
    refine ⟨⟨p0 ++ pre ++ [line], by rw [h0, e]; simp⟩, ?_⟩
    have := meshPush_length (push := offPush) (fun _ _ => rfl) (fun _ _ _ => rfl) offPush_face hp
    simp only [e, List.length_append, List.length_cons] at hI
    omega
  · rintro s ⟨m1, ⟨hI1, hI2⟩, hn | ⟨v, k, s', hn, hres⟩⟩
    · simp at hn
    · simp only [Option.some.injEq] at hn
      unfold offMeshNext at hn
      split_ifs at hn
      · simp at hn
      · obtain ⟨pre, line, s0, e, hl⟩ := offMeshLoop_item T _ _ _ _ hn
        obtain ⟨h1, h2⟩ := offMeshLine_reserve hl
        obtain ⟨pre', e'⟩ := hI1
        have hmem : line ∈ lines input := by rw [e', e]; simp
        rw [reserveMesh_none] at hres
        unfold huge at hI2
        have : huge ≤ v ∨ huge ≤ k := by unfold huge; omega
        rcases this with hv | hk
        · obtain ⟨w, hw, hp⟩ := nthNum_word h1
          exact ⟨line, hmem, w, hw, v, hp, hv⟩
        · obtain ⟨w, hw, hp⟩ := nthNum_word h2
          exact ⟨line, hmem, w, hw, k, hp, hk⟩

/-- C96 for the points of .off files -/
theorem c96_off_points_partial (T : FloatText α) (input : Bytes) (ip : List (Point3D α))
    (hm : ip.length + (lines input).length < huge) (h : loadOffPointsR T input ip = none) : AnnouncesHuge input := by
  unfold loadOffPointsR at h
  have step : ∀ s a s', some (offPointsNext T s) = some (some (.ok a), s') → ∃ pre line, OffMeshIter.lines s = pre ++ line :: s'.lines := by
    intro s a s' h
    simp only [Option.some.injEq] at h
    unfold offPointsNext at h
    split_ifs at h
    · simp at h
    · obtain ⟨pre, line, s0, e, -⟩ := offPointsLoop_item T _ _ _ _ h
      exact ⟨pre, line, e⟩
  refine (forEachR_cause h
    (fun (s : OffMeshIter) (m1 : List (Point3D α)) => (∃ pre, lines input = pre ++ s.lines) ∧ m1.length + s.lines.length < huge)
    (fun s => s.lines.length) (Nat.lt_succ_self _) ⟨⟨[], rfl⟩, hm⟩ ?_ ?_ ?_).elim ?_
  · intro s m a s' _ h
    obtain ⟨pre, line, e⟩ := step _ _ _ h
    simp [e]; omega
  · rintro s m v f s' ⟨⟨p0, h0⟩, hI⟩ h
    obtain ⟨pre, line, e⟩ := step _ _ _ h
    refine ⟨⟨p0 ++ pre ++ [line], by rw [h0, e]; simp⟩, ?_⟩
    simp only [e, List.length_append, List.length_cons] at hI
    omega
  · rintro s m a s' m' ⟨⟨p0, h0⟩, hI⟩ h hp
    obtain ⟨pre, line, e⟩ := step _ _ _ h
    refine ⟨⟨p0 ++ pre ++ [line], by rw [h0, e]; simp⟩, ?_⟩
    have := pushItem_length hp
    simp only [e, List.length_append, List.length_cons] at hI
    omega
  · rintro s ⟨m1, ⟨hI1, hI2⟩, hn | ⟨v, k, s', hn, hres⟩⟩
    · simp at hn
    · simp only [Option.some.injEq] at hn
      unfold offPointsNext at hn
      split_ifs at hn
      · simp at hn
      · obtain ⟨pre, line, s0, e, hl⟩ := offPointsLoop_item T _ _ _ _ hn
        obtain ⟨pre', e'⟩ := hI1
        have hmem : line ∈ lines input := by rw [e', e]; simp
        rw [reservePoints_none] at hres
        unfold huge at hI2
        obtain ⟨w, hw, hp⟩ := nthNum_word (offPointsLine_reserve hl)
        exact ⟨line, hmem, w, hw, v, hp, by unfold huge; omega⟩

/-! ### .pts -/

theorem ptsLine_lines (T : FloatText α) (line : Bytes) (s : PtsIter) : (ptsLine T line s).2.lines = s.lines := by
  unfold ptsLine
  repeat' split
  all_goals rfl

theorem ptsLoop_item (T : FloatText α) : ∀ (ls : List Bytes) (s : PtsIter) a s', ptsLoop T ls s = (some (.ok a), s') →
    ∃ pre line s0, ls = pre ++ line :: s'.lines ∧ ptsLine T line s0 = (some (.ok a), s')
  | [], s, a, s', h => by simp [ptsLoop] at h
  | l :: ls, s, a, s', h => by
    rw [ptsLoop] at h
    split_ifs at h with h1
    · obtain ⟨pre, line, s0, e, h3⟩ := ptsLoop_item T ls _ a s' h
      exact ⟨l :: pre, line, s0, by rw [e]; rfl, h3⟩
    · refine ⟨[], l, _, ?_, h⟩
      have := ptsLine_lines T l { s with lines := ls, iLine := s.iLine + 1 }
      rw [h] at this
      rw [List.nil_append, this]

theorem ptsLine_reserve {T : FloatText α} {line : Bytes} {s s' : PtsIter} {v k : Nat}
    (h : ptsLine T line s = (some (.ok (.reserve v k)), s')) : nthNum parseNat (toWords line) 0 = some v := by
  unfold ptsLine at h
  repeat' split at h
  all_goals
    simp only [Prod.mk.injEq, Option.some.injEq, Except.ok.injEq, Item.reserve.injEq, reduceCtorEq, false_and] at h
  · obtain ⟨⟨rfl, -⟩, -⟩ := h
    assumption
  · obtain ⟨⟨rfl, -⟩, -⟩ := h
    assumption

/-- C96 for .pts files -/
theorem c96_pts_partial (T : FloatText α) (input : Bytes) (ip : List (Point3D α))
    (hm : ip.length + (lines input).length < huge) (h : loadPtsR T input ip = none) : AnnouncesHuge input := by
  unfold loadPtsR at h
  have step : ∀ s a s', some (ptsNext T s) = some (some (.ok a), s') → ∃ pre line, PtsIter.lines s = pre ++ line :: s'.lines := by
    intro s a s' h
    simp only [Option.some.injEq] at h
    unfold ptsNext at h
    split_ifs at h
    · simp at h
    · obtain ⟨pre, line, s0, e, -⟩ := ptsLoop_item T _ _ _ _ h
      exact ⟨pre, line, e⟩
  refine (forEachR_cause h
    (fun (s : PtsIter) (m1 : List (Point3D α)) => (∃ pre, lines input = pre ++ s.lines) ∧ m1.length + s.lines.length < huge)
    (fun s => s.lines.length) (Nat.lt_succ_self _) ⟨⟨[], rfl⟩, hm⟩ ?_ ?_ ?_).elim ?_
  · intro s m a s' _ h
    obtain ⟨pre, line, e⟩ := step _ _ _ h
    simp [e]; omega
  · rintro s m v f s' ⟨⟨p0, h0⟩, hI⟩ h
    obtain ⟨pre, line, e⟩ := step _ _ _ h
    refine ⟨⟨p0 ++ pre ++ [line], by rw [h0, e]; simp⟩, ?_⟩
    simp only [e, List.length_append, List.length_cons] at hI
    omega
  · rintro s m a s' m' ⟨⟨p0, h0⟩, hI⟩ h hp
    obtain ⟨pre, line, e⟩ := step _ _ _ h
    refine ⟨⟨p0 ++ pre ++ [line], by rw [h0, e]; simp⟩, ?_⟩
    have := pushItem_length hp
    simp only [e, List.length_append, List.length_cons] at hI
    omega
  · rintro s ⟨m1, ⟨hI1, hI2⟩, hn | ⟨v, k, s', hn, hres⟩⟩
    · simp at hn
    · simp only [Option.some.injEq] at hn
      unfold ptsNext at hn
      split_ifs at hn
      · simp at hn
      · obtain ⟨pre, line, s0, e, hl⟩ := ptsLoop_item T _ _ _ _ hn
        obtain ⟨pre', e'⟩ := hI1
        have hmem : line ∈ lines input := by rw [e', e]; simp
        rw [reservePoints_none] at hres
        unfold huge at hI2
        obtain ⟨w, hw, hp⟩ := nthNum_word (ptsLine_reserve hl)
        exact ⟨line, hmem, w, hw, v, hp, by unfold huge; omega⟩

/-! ### .ptx -/

/-- the first two lines of a scan are its numbers of columns and rows, the product of which is at least 2^57 -/
def Spec.HugeScan (file : Bytes) : Prop := ∃ pre lc lr rest c r, lines file = pre ++ lc :: lr :: rest ∧
  fromAscii parseNat lc = some c ∧ fromAscii parseNat lr = some r ∧ huge ≤ r * c

theorem ptxHeader_shape {T : FloatText α} {ls rest : List Bytes} {i rows : Nat} {m : Matrix4 α} (h : ptxHeader T ls i = .ok (rows, m, rest)) :
    ∃ lr mid, ls = lr :: (mid ++ rest) ∧ fromAscii parseNat lr = some rows := by
  have hskip : ∀ {ls l' : List Bytes} {i : Nat}, ptxSkip ls i = .ok l' → ∃ x, ls = x :: l' := by
    intro ls l' i h
    unfold ptxSkip at h
    split at h
    · simp at h
    · simp only [Except.ok.injEq] at h; exact ⟨_, by rw [h]⟩
  have hrow : ∀ {ls : List Bytes} {i : Nat} {p}, ptxRow T ls i = .ok p → ∃ x, ls = x :: p.2 := by
    intro ls i p h
    unfold ptxRow at h
    split at h
    · simp at h
    · split at h
      · simp only [Except.ok.injEq] at h; exact ⟨_, by rw [← h]⟩
      · simp at h
  unfold ptxHeader at h
  simp only [bind, Except.bind, pure, Except.pure] at h
  split at h
  · simp at h
  · rename_i v1 e1
    split at h
    · simp at h
    · rename_i v2 e2
      split at h
      · simp at h
      · rename_i v3 e3
        split at h
        · simp at h
        · rename_i v4 e4
          split at h
          · simp at h
          · rename_i v5 e5
            split at h
            · simp at h
            · rename_i v6 e6
              split at h
              · simp at h
              · rename_i v7 e7
                split at h
                · simp at h
                · rename_i v8 e8
                  split at h
                  · simp at h
                  · rename_i v9 e9
                    simp only [Except.ok.injEq, Prod.mk.injEq] at h
                    obtain ⟨h1, -, h3⟩ := h
                    unfold ptxRows at e1
                    split at e1
                    · simp at e1
                    · rename_i line tl
                      split at e1
                      · rename_i r er
                        simp only [Except.ok.injEq] at e1
                        obtain ⟨x2, y2⟩ := hskip e2
                        obtain ⟨x3, y3⟩ := hskip e3
                        obtain ⟨x4, y4⟩ := hskip e4
                        obtain ⟨x5, y5⟩ := hskip e5
                        obtain ⟨x6, y6⟩ := hrow e6
                        obtain ⟨x7, y7⟩ := hrow e7
                        obtain ⟨x8, y8⟩ := hrow e8
                        obtain ⟨x9, y9⟩ := hrow e9
                        subst e1
                        dsimp only at h1 y2
                        refine ⟨line, [x2, x3, x4, x5, x6, x7, x8, x9], ?_, by rw [er, h1]⟩
                        rw [y2, y3, y4, y5, y6, y7, y8, y9, h3]
                        rfl
                      · simp at e1

theorem ptxNext_item [Scalar α] {T : FloatText α} {s s' : PtxIter α} {a : Item (Point3D α)} (h : ptxNext T s = some (some (.ok a), s')) :
    ∃ line mid, s.lines = line :: (mid ++ s'.lines) := by
  unfold ptxNext at h
  split_ifs at h
  · simp at h
  · split at h
    · simp at h
    · rename_i line rest el
      split at h
      · simp at h
      · split at h
        · simp at h
        · rename_i rows m rest' eh
          split_ifs at h
          simp only [Option.some.injEq, Prod.mk.injEq] at h
          obtain ⟨-, rfl⟩ := h
          obtain ⟨lr, mid, e, -⟩ := ptxHeader_shape eh
          exact ⟨line, lr :: mid, by rw [el, e]; rfl⟩
  · split at h
    · simp at h
    · rename_i line rest el
      dsimp only at h
      split at h
      · simp only [Option.some.injEq, Prod.mk.injEq] at h
        obtain ⟨-, rfl⟩ := h
        exact ⟨line, [], by rw [el]; rfl⟩
      · simp at h

theorem ptxNext_count [Scalar α] {T : FloatText α} {s : PtxIter α}
    (h : ptxNext T s = none ∨ ∃ v k s', ptxNext T s = some (some (.ok (.reserve v k)), s') ∧ huge ≤ v) :
    ∃ lc lr rest c r, s.lines = lc :: lr :: rest ∧ fromAscii parseNat lc = some c ∧ fromAscii parseNat lr = some r ∧ huge ≤ r * c := by
  unfold ptxNext at h
  split_ifs at h
  · simp at h
  · split at h
    · simp at h
    · rename_i line rest el
      split at h
      · simp at h
      · rename_i columns ec
        split at h
        · simp at h
        · rename_i rows m rest' eh
          obtain ⟨lr, mid, e, er⟩ := ptxHeader_shape eh
          refine ⟨line, lr, mid ++ rest', columns, rows, by rw [el, e], ec, er, ?_⟩
          split_ifs at h with hlt
          · obtain h | ⟨v, k, s', h, hv⟩ := h
            · simp at h
            · simp only [Option.some.injEq, Prod.mk.injEq, Except.ok.injEq, Item.reserve.injEq] at h
              rw [h.1.1]; exact hv
          · unfold huge; omega
  · split at h
    · simp at h
    · dsimp only at h
      split at h <;> simp at h

/-- C96 for .ptx files: only a scan of at least 2^57 points lets loading panic -/
theorem c96_ptx_partial [Scalar α] (T : FloatText α) (input : Bytes) (ip : List (Point3D α))
    (hm : ip.length + (lines input).length < huge) (h : loadPtxR T input ip = none) : HugeScan input := by
  unfold loadPtxR at h
  refine (forEachR_cause h
    (fun (s : PtxIter α) (m1 : List (Point3D α)) => (∃ pre, lines input = pre ++ s.lines) ∧ m1.length + s.lines.length < huge)
    (fun s => s.lines.length) (Nat.lt_succ_self _) ⟨⟨[], rfl⟩, hm⟩ ?_ ?_ ?_).elim ?_
  · intro s m a s' _ h
    obtain ⟨line, mid, e⟩ := ptxNext_item h
    simp only [e, List.length_cons, List.length_append]; omega
  · rintro s m v f s' ⟨⟨p0, h0⟩, hI⟩ h
    obtain ⟨line, mid, e⟩ := ptxNext_item h
    refine ⟨⟨p0 ++ line :: mid, by rw [h0, e]; simp⟩, ?_⟩
    simp only [e, List.length_append, List.length_cons] at hI
    omega
  · rintro s m a s' m' ⟨⟨p0, h0⟩, hI⟩ h hp
    obtain ⟨line, mid, e⟩ := ptxNext_item h
    refine ⟨⟨p0 ++ line :: mid, by rw [h0, e]; simp⟩, ?_⟩
    have := pushItem_length hp
    simp only [e, List.length_append, List.length_cons] at hI
    omega
  · rintro s ⟨m1, ⟨⟨pre, hI1⟩, hI2⟩, hn⟩
    obtain ⟨lc, lr, rest, c, r, e, h1, h2, h3⟩ := ptxNext_count (T := T) (s := s) <| by
      rcases hn with hn | ⟨v, k, s', hn, hres⟩
      · exact .inl hn
      · refine .inr ⟨v, k, s', hn, ?_⟩
        rw [reservePoints_none] at hres
        unfold huge at hI2 ⊢
        omega
    exact ⟨pre, lc, lr, rest, c, r, by rw [hI1, e], h1, h2, h3⟩

/-! ### .las -/

/-- C96 for .las files, exactly: loading panics if and only if the announced number of points cannot be reserved, or if there is a record of less
than 12 bytes. -/
theorem c96_las_partial (file : Bytes) (ip : List (Point3D F64)) : loadLasR file ip = none ↔ LasSupported file ∧
    (2 ^ 63 ≤ (ip.length + lasCount file) * 24 ∨ (lasSize file < 12 ∧ 0 < lasCount file ∧ lasSize file ≤ file.length - lasStart file)) := by
  by_cases hs : LasSupported file
  · simp only [hs, true_and]
    unfold loadLasR
    rw [forEachR.eq_def]
    dsimp only
    rw [lasNext_start hs]
    dsimp only
    by_cases hr : 2 ^ 63 ≤ (ip.length + lasCount file) * 24
    · rw [reservePoints_none.2 hr]
      exact ⟨fun _ => .inl hr, fun _ => rfl⟩
    · cases hr' : reservePoints ip (lasCount file) 0 with
      | none => exact absurd (reservePoints_none.1 hr') hr
      | some u =>
        simp only [hr, false_or]
        constructor
        · intro h
          by_contra hc
          have step : ∀ s a s', (s.header = some (lasHead file) ∧ ∃ pos, s.read = file.drop pos ∧ (s.current = 0 → pos = lasStart file) ∧
              (s.current ≠ 0 → 12 ≤ lasSize file)) → lasNext s = some (some (.ok a), s') → s'.read.length < s.read.length ∧
              s'.header = some (lasHead file) ∧ ∃ pos, s'.read = file.drop pos ∧ (s'.current = 0 → pos = lasStart file) ∧
              (s'.current ≠ 0 → 12 ≤ lasSize file) := by
            rintro s a s' ⟨h1, pos, h2, h3, h4⟩ hn
            unfold lasNext at hn
            rw [h1, h2] at hn
            dsimp only at hn
            obtain ⟨f1, f2, f3⟩ := lasFetchOne_eq (file := file) (h := lasHead file) (pos := pos) rfl
            split_ifs at hn
            · simp at hn
            · by_cases c1 : file.length - pos < lasSize file
              · rw [f1 c1] at hn; simp at hn
              · by_cases c2 : lasSize file < 12
                · rw [f2 (by omega) c2] at hn; simp at hn
                · rw [f3 (by omega) (by omega)] at hn
                  simp only [Option.some.injEq, Prod.mk.injEq] at hn
                  obtain ⟨-, rfl⟩ := hn
                  refine ⟨?_, rfl, pos + lasSize file, rfl, fun h => by simp at h, fun _ => by omega⟩
                  rw [h2]; simp only [List.length_drop]; omega
            · simp at hn
          refine (forEachR_cause h (fun (s : LasIter) _ => s.header = some (lasHead file) ∧
              ∃ pos, s.read = file.drop pos ∧ (s.current = 0 → pos = lasStart file) ∧ (s.current ≠ 0 → 12 ≤ lasSize file))
            (fun s => s.read.length) (by simp; omega) ⟨rfl, lasStart file, rfl, fun _ => rfl, fun h => absurd rfl h⟩
            (fun s _ a s' hI hn => (step s a s' hI hn).1) (fun s _ _ _ s' hI hn => (step s _ s' hI hn).2)
            (fun s _ a s' _ hI hn _ => (step s a s' hI hn).2)).elim ?_
          rintro s ⟨m, ⟨h1, pos, h2, h3, h4⟩, hn⟩
          unfold lasNext at hn
          rw [h1, h2] at hn
          dsimp only at hn
          obtain ⟨f1, f2, f3⟩ := lasFetchOne_eq (file := file) (h := lasHead file) (pos := pos) rfl
          split_ifs at hn with c0 c3
          · simp at hn
          · by_cases c1 : file.length - pos < lasSize file
            · rw [f1 c1] at hn; simp at hn
            · by_cases c2 : lasSize file < 12
              · have hcnt : (lasHead file).nPointRecords = lasCount file := rfl
                by_cases h0 : s.current = 0
                · rw [h3 h0] at c1
                  exact hc ⟨c2, by omega, by omega⟩
                · have := h4 h0; omega
              · rw [f3 (by omega) (by omega)] at hn; simp at hn
          · simp at hn
        · rintro ⟨h12, hn, hl⟩
          have hcur : 0 < (lasHead file).nPointRecords := hn
          have hf := (lasFetchOne_eq (file := file) (h := lasHead file) (pos := lasStart file) rfl).2.1 hl h12
          rw [forEachR.eq_def]
          have : lasNext ⟨file, file.drop (lasStart file), false, 0, some (lasHead file)⟩ = none := by
            simp [lasNext, hcur, hf]
          dsimp only
          rw [this]
  · simp only [hs, false_and, iff_false]
    rcases lasHeader_cases file with ⟨h, -⟩ | ⟨-, e, he⟩
    · exact absurd h hs
    · unfold loadLasR
      rw [forEachR.eq_def]
      simp [lasNext, he]

/-! ### .ply -/

/-- a line of a header giving the type of a coordinate of a vertex -/
def Spec.axisLine (line : Bytes) : Bool :=
  startsWith line b!"property" && ((toWords line)[2]? == some b!"x" || (toWords line)[2]? == some b!"y" || (toWords line)[2]? == some b!"z")

/-- there are more than three coordinates -/
def Spec.FourAxes (file : Bytes) : Prop := 3 < ((lines file).filter axisLine).length

theorem fetchLine_length {s l r : Bytes} (h : fetchLine s = some (l, r)) : r.length < s.length := by
  have key : ∀ s : Bytes, (readUntilNl s).1.length + (readUntilNl s).2.length = s.length := by
    intro s
    induction s with
    | nil => rfl
    | cons b s ih =>
      simp only [readUntilNl]
      split_ifs
      · simp; omega
      · simp only [List.length_cons]; omega
  have := key s
  unfold fetchLine at h
  dsimp only at h
  split_ifs at h with h1
  simp only [Option.some.injEq, Prod.mk.injEq] at h
  obtain ⟨-, rfl⟩ := h
  omega

/-- what is known of the header read so far: the coordinates come from the lines, the counts are words of them -/
structure PlySeen (file : Bytes) (seen : List Bytes) (s : PlyHeaderState) : Prop where
  order : s.vertexOrder.length = 3
  axes : s.iVertexOrder ≤ (seen.filter axisLine).length
  verts : ∀ n, s.nVertices = some n → ∃ line ∈ lines file, ∃ w ∈ toWords line, fromAscii parseNat w = some n
  faces : ∀ n, s.nFaces = some n → ∃ line ∈ lines file, ∃ w ∈ toWords line, fromAscii parseNat w = some n

theorem filter_axes_le (seen : List Bytes) (line : Bytes) :
    (seen.filter axisLine).length ≤ ((seen ++ [line]).filter axisLine).length := by simp

theorem PlySeen.grow {file : Bytes} {seen : List Bytes} {s s' : PlyHeaderState} (h : PlySeen file seen s) (line : Bytes)
    (h1 : s'.vertexOrder = s.vertexOrder) (h2 : s'.iVertexOrder = s.iVertexOrder) (h3 : s'.nVertices = s.nVertices) (h4 : s'.nFaces = s.nFaces) :
    PlySeen file (seen ++ [line]) s' :=
  ⟨by rw [h1]; exact h.order, by rw [h2]; exact h.axes.trans (filter_axes_le _ _), by rw [h3]; exact h.verts, by rw [h4]; exact h.faces⟩

theorem PlySeen.addAxis {file : Bytes} {seen : List Bytes} {s s' : PlyHeaderState} (h : PlySeen file seen s) {line : Bytes} (ha : axisLine line = true)
    {x : PlyAxis} (e : s.addAxis x = some s') : PlySeen file (seen ++ [line]) s' := by
  unfold PlyHeaderState.addAxis at e
  split_ifs at e
  simp only [Option.some.injEq] at e
  subst e
  refine ⟨by simp [h.order], ?_, h.verts, h.faces⟩
  have := h.axes
  simp [ha]; omega

theorem PlySeen.addAxis_none {file : Bytes} {seen : List Bytes} {s : PlyHeaderState} (h : PlySeen file seen s) {line : Bytes} (ha : axisLine line = true)
    {x : PlyAxis} (e : s.addAxis x = none) : 3 < ((seen ++ [line]).filter axisLine).length := by
  unfold PlyHeaderState.addAxis at e
  split_ifs at e with h1
  have := h.axes
  have := h.order
  simp [ha]; omega

theorem plyVertexProperty_seen {file : Bytes} {seen : List Bytes} {s : PlyHeaderState} (h : PlySeen file seen s) {line : Bytes}
    (hp : startsWith line b!"property" = true) :
    (plyVertexProperty line s = none → 3 < ((seen ++ [line]).filter axisLine).length) ∧
    ∀ s', plyVertexProperty line s = some (.ok s') → PlySeen file (seen ++ [line]) s' := by
  have hadd : ∀ (s1 : PlyHeaderState) (x : PlyAxis), PlySeen file seen s1 → axisLine line = true →
      ((s1.addAxis x).map (Except.ok (ε := PlyError)) = none → 3 < ((seen ++ [line]).filter axisLine).length) ∧
      ∀ s', (s1.addAxis x).map (Except.ok (ε := PlyError)) = some (.ok s') → PlySeen file (seen ++ [line]) s' := by
    intro s1 x h1 ha
    constructor
    · intro e
      rw [Option.map_eq_none_iff] at e
      exact h1.addAxis_none ha e
    · intro s' e
      rw [Option.map_eq_some_iff] at e
      obtain ⟨s2, e1, e2⟩ := e
      simp only [Except.ok.injEq] at e2
      subst e2
      exact h1.addAxis ha e1
  unfold plyVertexProperty
  dsimp only
  split
  · simp
  · split
    · simp
    · rename_i id eid
      split_ifs with hx hy hz h0 h1 h2
      · split
        · simp
        · exact hadd _ _ ⟨h.order, h.axes, h.verts, h.faces⟩ (by simp [axisLine, hp, eid, hx])
      · split
        · simp
        · exact hadd _ _ ⟨h.order, h.axes, h.verts, h.faces⟩ (by simp [axisLine, hp, eid, hy])
      · split
        · simp
        · exact hadd _ _ ⟨h.order, h.axes, h.verts, h.faces⟩ (by simp [axisLine, hp, eid, hz])
      all_goals
        refine ⟨by simp, fun s' e => ?_⟩
        simp only [Option.some.injEq, Except.ok.injEq] at e
        subst e
        exact h.grow line rfl rfl rfl rfl

theorem plyFaceProperty_seen {file : Bytes} {seen : List Bytes} {s s' : PlyHeaderState} (h : PlySeen file seen s) {line : Bytes}
    (e : plyFaceProperty line s = .ok s') : PlySeen file (seen ++ [line]) s' := by
  unfold plyFaceProperty at e
  repeat' split at e
  all_goals simp only [Except.ok.injEq, reduceCtorEq] at e
  all_goals
    subst e
    exact h.grow line rfl rfl rfl rfl

theorem plyEndHeader_count {s : PlyHeaderState} {hd : PlyHeader} (e : plyEndHeader s = .ok hd) :
    s.nVertices = some hd.vertex.count ∧ ∀ f, hd.face = some f → s.nFaces = some f.count := by
  unfold plyEndHeader at e
  split at e
  · rename_i e1 e2 e3 e4 e5
    split at e
    · simp at e
    · simp only [Except.ok.injEq] at e
      subst e
      refine ⟨e2, fun f hf => ?_⟩
      dsimp only at hf
      split at hf
      · rename_i e6 _ _
        simp only [Option.some.injEq] at hf
        subst hf
        exact e6
      · simp at hf
  · simp at e

theorem plyHeaderLine_seen {file : Bytes} {seen : List Bytes} {s : PlyHeaderState} (h : PlySeen file seen s) {line : Bytes} (hl : line ∈ lines file) :
    (plyHeaderLine line s = none → 3 < ((seen ++ [line]).filter axisLine).length) ∧
    (∀ s', plyHeaderLine line s = some (.ok (.next s')) → PlySeen file (seen ++ [line]) s') ∧
    (∀ hd, plyHeaderLine line s = some (.ok (.done hd)) → s.nVertices = some hd.vertex.count ∧ ∀ f, hd.face = some f → s.nFaces = some f.count) := by
  have hsame : ∀ {s1 s2 : PlyHeaderState}, some (Except.ok (ε := PlyError) (PlyStep.next s1)) = some (.ok (.next s2)) → s1 = s2 := by
    intro s1 s2 e
    simpa using e
  unfold plyHeaderLine
  split_ifs
  · exact ⟨by simp, fun s' e => hsame e ▸ h.grow line rfl rfl rfl rfl, by simp⟩
  · exact ⟨by simp, fun s' e => hsame e ▸ h.grow line rfl rfl rfl rfl, by simp⟩
  · exact ⟨by simp, fun s' e => hsame e ▸ h.grow line rfl rfl rfl rfl, by simp⟩
  · simp
  · split
    · simp
    · exact ⟨by simp, fun s' e => hsame e ▸ h.grow line rfl rfl rfl rfl, by simp⟩
  · split
    · simp
    · rename_i n en
      refine ⟨by simp, fun s' e => ?_, by simp⟩
      rw [← hsame e]
      refine ⟨h.order, h.axes.trans (filter_axes_le _ _), fun k hk => ?_, h.faces⟩
      obtain ⟨w, hw, hp⟩ := nthNum_word en
      simp only [Option.some.injEq] at hk
      exact ⟨line, hl, w, hw, by rw [hp, hk]⟩
  · split
    · simp
    · rename_i n en
      refine ⟨by simp, fun s' e => ?_, by simp⟩
      rw [← hsame e]
      refine ⟨h.order, h.axes.trans (filter_axes_le _ _), h.verts, fun k hk => ?_⟩
      obtain ⟨w, hw, hp⟩ := nthNum_word en
      simp only [Option.some.injEq] at hk
      exact ⟨line, hl, w, hw, by rw [hp, hk]⟩
  · unfold plyHeaderRest
    split_ifs with hp he
    · split
      · obtain ⟨a, b⟩ := plyVertexProperty_seen h hp
        refine ⟨fun e => a (by simpa using e), fun s' e => ?_, fun hd e => ?_⟩
        · rw [Option.map_eq_some_iff] at e
          obtain ⟨x, e1, e2⟩ := e
          cases x with
          | error _ => simp [Except.map] at e2
          | ok s1 =>
            simp only [Except.map, Except.ok.injEq, PlyStep.next.injEq] at e2
            subst e2
            exact b _ e1
        · rw [Option.map_eq_some_iff] at e
          obtain ⟨x, e1, e2⟩ := e
          cases x <;> simp [Except.map] at e2
      · refine ⟨by simp, fun s' e => ?_, fun hd e => ?_⟩
        · simp only [Option.some.injEq] at e
          cases hf : plyFaceProperty line s with
          | error _ => rw [hf] at e; simp [Except.map] at e
          | ok s1 =>
            rw [hf] at e
            simp only [Except.map, Except.ok.injEq, PlyStep.next.injEq] at e
            subst e
            exact plyFaceProperty_seen h hf
        · simp only [Option.some.injEq] at e
          cases hf : plyFaceProperty line s <;> rw [hf] at e <;> simp [Except.map] at e
      · simp
    · refine ⟨by simp, fun s' e => ?_, fun hd e => ?_⟩
      · simp only [Option.some.injEq] at e
        cases hf : plyEndHeader s <;> rw [hf] at e <;> simp [Except.map] at e
      · simp only [Option.some.injEq] at e
        cases hf : plyEndHeader s with
        | error _ => rw [hf] at e; simp [Except.map] at e
        | ok h1 =>
          rw [hf] at e
          simp only [Except.map, Except.ok.injEq, PlyStep.done.injEq] at e
          subst e
          exact plyEndHeader_count hf
    · simp

theorem plyHeaderLoop_seen {file : Bytes} : ∀ (n : Nat) (read : Bytes) (i : Nat) (s : PlyHeaderState) (seen : List Bytes), read.length < n →
    lines file = seen ++ lines read → PlySeen file seen s →
    (plyHeaderLoop n read i s = none → FourAxes file) ∧
    ∀ hd rest k, plyHeaderLoop n read i s = some (.ok (hd, rest, k)) → rest.length ≤ read.length ∧
      (∃ line ∈ lines file, ∃ w ∈ toWords line, fromAscii parseNat w = some hd.vertex.count) ∧
      ∀ f, hd.face = some f → ∃ line ∈ lines file, ∃ w ∈ toWords line, fromAscii parseNat w = some f.count
  | 0, _, _, _, _, hn, _, _ => by omega
  | n + 1, read, i, s, seen, hn, hl, h => by
    rw [plyHeaderLoop]
    cases hf : fetchLine read with
    | none => simp
    | some p =>
      obtain ⟨line, rest⟩ := p
      have hlen := fetchLine_length hf
      have hl2 := (lines_fetchLine read).1 _ _ hf
      have hl3 : lines file = (seen ++ [line]) ++ lines rest := by rw [hl, hl2]; simp
      obtain ⟨h1, h2, h3⟩ := plyHeaderLine_seen h (line := line) (by rw [hl3]; simp)
      dsimp only
      cases hline : plyHeaderLine line s with
      | none =>
        refine ⟨fun _ => ?_, by simp⟩
        have := h1 hline
        unfold FourAxes
        rw [hl3, List.filter_append, List.length_append]
        omega
      | some r =>
        match r, hline with
        | .error e, _ => simp
        | .ok (.next s'), hline =>
          obtain ⟨a, b⟩ := plyHeaderLoop_seen n rest (i + 1) s' (seen ++ [line]) (by omega) hl3 (h2 s' hline)
          exact ⟨a, fun hd r k e => ⟨by have := (b hd r k e).1; omega, (b hd r k e).2⟩⟩
        | .ok (.done hd), hline =>
          refine ⟨by simp, fun hd' r k e => ?_⟩
          simp only [Option.some.injEq, Except.ok.injEq, Prod.mk.injEq] at e
          obtain ⟨rfl, rfl, -⟩ := e
          obtain ⟨a, b⟩ := h3 hd hline
          exact ⟨by omega, h.verts _ a, fun f hf => h.faces _ (b f hf)⟩

theorem plyLoadHeader_seen (file : Bytes) : (plyLoadHeader file = none → FourAxes file) ∧
    ∀ hd rest k, plyLoadHeader file = some (.ok (hd, rest, k)) → rest.length ≤ file.length ∧
      (∃ line ∈ lines file, ∃ w ∈ toWords line, fromAscii parseNat w = some hd.vertex.count) ∧
      ∀ f, hd.face = some f → ∃ line ∈ lines file, ∃ w ∈ toWords line, fromAscii parseNat w = some f.count :=
  plyHeaderLoop_seen (file.length + 1) file 0 PlyHeaderState.init [] (by omega) rfl
    ⟨rfl, Nat.zero_le _, fun n e => by simp [PlyHeaderState.init] at e, fun n e => by simp [PlyHeaderState.init] at e⟩

theorem readVertexType_shorter {e : Endian} {t : VertexType} {s r : Bytes} {v : F64} (h : readVertexType e t s = some (v, r)) :
    r.length < s.length := by
  obtain ⟨c, rfl, hc⟩ := readVertexType_iff.1 h
  have : 0 < c.length := by cases t <;> simp only [Coord] at hc <;> omega
  simp; omega

theorem plyBinaryVertex_shorter {e : Endian} {h : PlyVertexData} {s r : Bytes} {p : PlyPoint} (hv : plyBinaryVertex e h s = some (p, r)) :
    r.length < s.length := by
  unfold plyBinaryVertex at hv
  simp only [Option.bind_eq_bind, Option.bind_eq_some_iff, Prod.exists, pure, Option.some.injEq, Prod.mk.injEq] at hv
  obtain ⟨s1, h1, a, s2, h2, s3, h3, b, s4, h4, s5, h5, c, s6, h6, s7, h7, -, rfl⟩ := hv
  have k2 := readVertexType_shorter h2
  have k4 := readVertexType_shorter h4
  have k6 := readVertexType_shorter h6
  obtain ⟨p1, e1, -⟩ := skipBytes_some h1
  obtain ⟨p3, e3, -⟩ := skipBytes_some h3
  obtain ⟨p5, e5, -⟩ := skipBytes_some h5
  obtain ⟨p7, e7, -⟩ := skipBytes_some h7
  have q1 := congrArg List.length e1
  have q3 := congrArg List.length e3
  have q5 := congrArg List.length e5
  have q7 := congrArg List.length e7
  simp only [List.length_append] at q1 q3 q5 q7
  omega

theorem readFaceType_shorter {e : Endian} {t : FaceType} {s r : Bytes} {n : Nat} (h : readFaceType e t s = some (n, r)) : r.length < s.length := by
  obtain ⟨c, rfl, hc, -⟩ := readFaceType_iff.1 h
  have : 0 < (intSize t).1 := by cases t <;> decide
  simp; omega

theorem plyBinaryFace_shorter {e : Endian} {h : PlyFaceData} {s r : Bytes} {f : Nat × Nat × Nat} (hv : plyBinaryFace e h s = (.ok f, r)) :
    r.length < s.length := by
  unfold plyBinaryFace at hv
  split at hv
  · simp at hv
  · rename_i n s1 e1
    split_ifs at hv
    · simp at hv
    · split at hv
      · simp at hv
      · rename_i f' s2 e2
        simp only [Prod.mk.injEq, Except.ok.injEq] at hv
        obtain ⟨-, rfl⟩ := hv
        simp only [Option.bind_eq_bind, Option.bind_eq_some_iff, Prod.exists, pure, Option.some.injEq, Prod.mk.injEq] at e1 e2
        obtain ⟨t0, h0, h1⟩ := e1
        obtain ⟨a, t1, h2, b, t2, h3, c, t3, h4, t4, h5, -, rfl⟩ := e2
        have k1 := readFaceType_shorter h1
        have k2 := readFaceType_shorter h2
        have k3 := readFaceType_shorter h3
        have k4 := readFaceType_shorter h4
        obtain ⟨p1, q1, -⟩ := skipBytes_some h0
        obtain ⟨p5, q5, -⟩ := skipBytes_some h5
        have q1 := congrArg List.length q1
        have q5 := congrArg List.length q5
        simp only [List.length_append] at q1 q5
        omega

theorem plyPointsInner_shorter (T : FloatText F64) (format : PlyFormat) (h : PlyVertexData) (s s' : PlyCursor) :
    (∀ p, plyPointsInner T format h s = (some (.ok p), s') → s'.read.length < s.read.length) ∧
    (plyPointsInner T format h s = (none, s') → s'.read = s.read) := by
  unfold plyPointsInner
  cases format with
  | Ascii =>
    dsimp only
    unfold plyAsciiPointsNext
    have hend : ∀ (c c' : PlyCursor) x, plyAsciiPointsEnd h c = (x, c') → (∀ p, x ≠ some (.ok p)) ∧ c'.read = c.read := by
      intro c c' x e
      unfold plyAsciiPointsEnd at e
      split_ifs at e
      all_goals
        simp only [Prod.mk.injEq] at e
        obtain ⟨rfl, rfl⟩ := e
        simp
    constructor
    · intro p e
      split_ifs at e
      · simp at e
      · split at e
        · rename_i line rest el
          split at e
          · simp only [Prod.mk.injEq] at e
            obtain ⟨-, rfl⟩ := e
            exact fetchLine_length el
          · simp at e
        · exact absurd rfl ((hend _ _ _ e).1 p)
      · exact absurd rfl ((hend _ _ _ e).1 p)
    · intro e
      split_ifs at e
      · simp only [Prod.mk.injEq, true_and] at e; rw [e]
      · split at e
        · split at e <;> simp at e
        · exact (hend _ _ _ e).2
      · exact (hend _ _ _ e).2
  | Binary en =>
    dsimp only
    unfold plyBinaryPointsNext
    constructor
    · intro p e
      split_ifs at e
      · simp [plySimple] at e
      · split at e
        · simp [plySimple] at e
        · rename_i p' rest el
          simp only [plySimple, Prod.mk.injEq] at e
          obtain ⟨-, rfl⟩ := e
          exact plyBinaryVertex_shorter el
      · simp [plySimple] at e
    · intro e
      split_ifs at e
      · simp only [plySimple, Prod.mk.injEq, true_and] at e; rw [e]
      · split at e <;> simp [plySimple] at e
      · simp only [plySimple, Prod.mk.injEq, true_and] at e; rw [← e]

theorem plyFacesInner_shorter (format : PlyFormat) (h : PlyFaceData) (s s' : PlyCursor) (f : Nat × Nat × Nat)
    (e : plyFacesInner format h s = (some (.ok f), s')) : s'.read.length < s.read.length := by
  unfold plyFacesInner at e
  cases format with
  | Ascii =>
    dsimp only at e
    unfold plyAsciiFacesNext at e
    split_ifs at e
    · simp at e
    · split at e
      · rename_i line rest el
        split at e
        · simp only [Prod.mk.injEq] at e
          obtain ⟨-, rfl⟩ := e
          exact fetchLine_length el
        · simp at e
      · simp at e
    · simp at e
  | Binary en =>
    dsimp only at e
    unfold plyBinaryFacesNext at e
    split_ifs at e
    · simp [plySimple] at e
    · split at e
      · simp [plySimple] at e
      · rename_i f' rest el
        simp only [plySimple, Prod.mk.injEq] at e
        obtain ⟨-, rfl⟩ := e
        exact plyBinaryFace_shorter el
    · simp [plySimple] at e

/-- the bytes left -/
def PlyMeshCursor.read : PlyMeshCursor → Bytes
  | .points s => s.read
  | .faces s => s.read

theorem plyMeshInner_shorter (T : FloatText F64) (format : PlyFormat) (hv : PlyVertexData) (hf : PlyFaceData) (s s' : PlyMeshCursor) (a : Item PlyPoint)
    (e : plyMeshInner T format hv hf s = (some (.ok a), s')) : s'.read.length < s.read.length ∧ ∀ v k, a ≠ .reserve v k := by
  have hfaces : ∀ (c : PlyCursor), plyMeshFaces format hf c = (some (.ok a), s') → s'.read.length < c.read.length ∧ ∀ v k, a ≠ .reserve v k := by
    intro c e
    unfold plyMeshFaces at e
    split at e
    · simp at e
    · simp at e
    · rename_i x y z c' ec
      simp only [Prod.mk.injEq, Option.some.injEq, Except.ok.injEq] at e
      obtain ⟨rfl, rfl⟩ := e
      exact ⟨plyFacesInner_shorter _ _ _ _ _ ec, by simp⟩
  cases s with
  | points c =>
    simp only [plyMeshInner] at e
    split at e
    · rename_i p c' ec
      simp only [Prod.mk.injEq, Option.some.injEq, Except.ok.injEq] at e
      obtain ⟨rfl, rfl⟩ := e
      exact ⟨(plyPointsInner_shorter _ _ _ _ _).1 _ ec, by simp⟩
    · simp at e
    · rename_i c' ec
      have := hfaces _ e
      rw [(plyPointsInner_shorter _ _ _ _ _).2 ec] at this
      exact this
  | faces c => exact hfaces c e

theorem plyData_ok {x : Option (Except (LineInfo PlyError) PlyPoint)} {a : Item PlyPoint} (h : plyData x = some (.ok a)) :
    ∃ p, x = some (.ok p) ∧ a = .data p := by
  match x, h with
  | some (.ok p), h => simp only [plyData, Option.some.injEq, Except.ok.injEq] at h; exact ⟨p, rfl, h.symm⟩

/-- C96 for .ply files: only a fourth coordinate or an announced number of at least 2^57 lets loading panic -/
theorem c96_ply_partial (T : FloatText F64) (file : Bytes) (m : TMesh PlyPoint) (ip : List PlyPoint)
    (hm : m.verts.length + m.faces.length < huge) (hip : ip.length < huge)
    (h : loadPlyMeshR T file m = none ∨ loadPlyPointsR T file ip = none ∨ loadPlyEitherR T file m ip = none) :
    FourAxes file ∨ AnnouncesHuge file := by
  obtain ⟨hnone, hsome⟩ := plyLoadHeader_seen file
  cases hh : plyLoadHeader file with
  | none => exact .inl (hnone hh)
  | some r =>
    match r, hh with
    | .error e, hh => simp [loadPlyMeshR, loadPlyPointsR, loadPlyEitherR, PlyMeshIter.new, PlyPointsIter.new, hh] at h
    | .ok (hd, rest, i), hh =>
      right
      obtain ⟨hrest, hv, hf⟩ := hsome hd rest i hh
      have hbigV : huge ≤ hd.vertex.count → AnnouncesHuge file := by
        intro hb
        obtain ⟨line, h1, w, h2, h3⟩ := hv
        exact ⟨line, h1, w, h2, _, h3, hb⟩
      have hbigF : ∀ f, hd.face = some f → huge ≤ f.count → AnnouncesHuge file := by
        intro f hf' hb
        obtain ⟨line, h1, w, h2, h3⟩ := hf f hf'
        exact ⟨line, h1, w, h2, _, h3, hb⟩
      have hP : ∀ k, reservePoints ip hd.vertex.count k = none → AnnouncesHuge file := by
        intro k hr
        rw [reservePoints_none] at hr
        unfold huge at hip
        exact hbigV (by unfold huge; omega)
      have hM : ∀ f, hd.face = some f → reserveMesh m hd.vertex.count f.count = none → AnnouncesHuge file := by
        intro f hf' hr
        rw [reserveMesh_none] at hr
        unfold huge at hm
        have : huge ≤ hd.vertex.count ∨ huge ≤ f.count := by unfold huge; omega
        rcases this with hb | hb
        · exact hbigV hb
        · exact hbigF f hf' hb
      rcases h with h | h | h
      · simp only [loadPlyMeshR, PlyMeshIter.new, hh] at h
        cases hface : hd.face with
        | none => simp [hface] at h
        | some f =>
          simp only [hface] at h
          have step : ∀ (s : PlyMeshIter) a s', s.toReserve = none → some (plyMeshNext T s) = some (some (.ok a), s') →
              s'.inner.read.length < s.inner.read.length ∧ s'.toReserve = none ∧ ∀ v k, a ≠ .reserve v k := by
            intro s a s' h0 hn
            simp only [plyMeshNext, h0, Option.some.injEq, Prod.mk.injEq] at hn
            obtain ⟨h1, rfl⟩ := hn
            have := plyMeshInner_shorter T s.format s.vertex s.face s.inner _ a (Prod.ext h1 rfl)
            exact ⟨this.1, rfl, this.2⟩
          have step0 : ∀ (s : PlyMeshIter) n k a s', s.toReserve = some (n, k) → some (plyMeshNext T s) = some (some (.ok a), s') →
              s'.inner = s.inner ∧ s'.toReserve = none ∧ a = .reserve n k := by
            intro s n k a s' h0 hn
            simp only [plyMeshNext, h0, Option.some.injEq, Prod.mk.injEq, Except.ok.injEq] at hn
            obtain ⟨rfl, rfl⟩ := hn
            exact ⟨rfl, rfl, rfl⟩
          refine (forEachR_cause h (fun (s : PlyMeshIter) (m1 : TMesh PlyPoint) => s.toReserve = none ∨
              (s.toReserve = some (hd.vertex.count, f.count) ∧ m1 = m))
            (fun s => s.inner.read.length + if s.toReserve.isSome then 1 else 0) (by simp [PlyMeshCursor.read]; omega) (.inr ⟨rfl, rfl⟩) ?_ ?_ ?_).elim ?_
          · rintro s m1 a s' (h0 | ⟨h0, -⟩) hn
            · have := step s a s' h0 hn
              simp [this.2.1, h0, this.1]
            · have := step0 s _ _ a s' h0 hn
              simp [this.2.1, h0, this.1]
          · rintro s m1 v k s' (h0 | ⟨h0, -⟩) hn
            · exact .inl (step s _ s' h0 hn).2.1
            · exact .inl (step0 s _ _ _ s' h0 hn).2.1
          · rintro s m1 a s' m' (h0 | ⟨h0, -⟩) hn -
            · exact .inl (step s _ s' h0 hn).2.1
            · exact .inl (step0 s _ _ _ s' h0 hn).2.1
          · rintro s ⟨m1, hI, hn | ⟨v, k, s', hn, hres⟩⟩
            · simp at hn
            · rcases hI with h0 | ⟨h0, rfl⟩
              · exact absurd rfl ((step s _ s' h0 hn).2.2 v k)
              · have := (step0 s _ _ _ s' h0 hn).2.2
                simp only [Item.reserve.injEq] at this
                obtain ⟨rfl, rfl⟩ := this
                exact hM f hface hres
      · simp only [loadPlyPointsR, PlyPointsIter.new, hh] at h
        have step : ∀ (s : PlyPointsIter) a s', s.toReserve = none → some (plyPointsNext T s) = some (some (.ok a), s') →
            s'.inner.read.length < s.inner.read.length ∧ s'.toReserve = none ∧ ∀ v k, a ≠ .reserve v k := by
          intro s a s' h0 hn
          simp only [plyPointsNext, h0, Option.some.injEq, Prod.mk.injEq] at hn
          obtain ⟨h1, rfl⟩ := hn
          obtain ⟨p, h2, rfl⟩ := plyData_ok h1
          exact ⟨(plyPointsInner_shorter T s.format s.vertex s.inner _).1 p (Prod.ext h2 rfl), rfl, by simp⟩
        have step0 : ∀ (s : PlyPointsIter) n a s', s.toReserve = some n → some (plyPointsNext T s) = some (some (.ok a), s') →
            s'.inner = s.inner ∧ s'.toReserve = none ∧ a = .reserve n 0 := by
          intro s n a s' h0 hn
          simp only [plyPointsNext, h0, Option.some.injEq, Prod.mk.injEq, Except.ok.injEq] at hn
          obtain ⟨rfl, rfl⟩ := hn
          exact ⟨rfl, rfl, rfl⟩
        refine (forEachR_cause h (fun (s : PlyPointsIter) (m1 : List PlyPoint) => s.toReserve = none ∨
            (s.toReserve = some hd.vertex.count ∧ m1 = ip))
          (fun s => s.inner.read.length + if s.toReserve.isSome then 1 else 0) (by simp; omega) (.inr ⟨rfl, rfl⟩) ?_ ?_ ?_).elim ?_
        · rintro s m1 a s' (h0 | ⟨h0, -⟩) hn
          · have := step s a s' h0 hn
            simp [this.2.1, h0, this.1]
          · have := step0 s _ a s' h0 hn
            simp [this.2.1, h0, this.1]
        · rintro s m1 v k s' (h0 | ⟨h0, -⟩) hn
          · exact .inl (step s _ s' h0 hn).2.1
          · exact .inl (step0 s _ _ s' h0 hn).2.1
        · rintro s m1 a s' m' (h0 | ⟨h0, -⟩) hn -
          · exact .inl (step s _ s' h0 hn).2.1
          · exact .inl (step0 s _ _ s' h0 hn).2.1
        · rintro s ⟨m1, hI, hn | ⟨v, k, s', hn, hres⟩⟩
          · simp at hn
          · rcases hI with h0 | ⟨h0, rfl⟩
            · exact absurd rfl ((step s _ s' h0 hn).2.2 v k)
            · have := (step0 s _ _ s' h0 hn).2.2
              simp only [Item.reserve.injEq] at this
              obtain ⟨rfl, rfl⟩ := this
              exact hP _ hres
      · simp only [loadPlyEitherR, hh] at h
        cases hface : hd.face with
        | some f =>
          simp only [hface, Option.bind_eq_bind] at h
          cases hr : reserveMesh m hd.vertex.count f.count with
          | none => exact hM f hface hr
          | some u =>
            rw [hr, Option.bind_some, Option.map_eq_none_iff] at h
            have step : ∀ (s : PlyMeshCursor) a s', some (plyMeshInner T hd.format hd.vertex f s) = some (some (.ok a), s') →
                s'.read.length < s.read.length ∧ ∀ v k, a ≠ .reserve v k := fun s a s' hn =>
              plyMeshInner_shorter T _ _ _ s s' a (by simpa using hn)
            refine (forEachR_cause h (fun _ _ => True) (fun s => s.read.length) (by simp [PlyMeshCursor.read]; omega) trivial
              (fun s _ a s' _ hn => (step s a s' hn).1) (fun _ _ _ _ _ _ _ => trivial) (fun _ _ _ _ _ _ _ _ => trivial)).elim ?_
            rintro s ⟨m1, -, hn | ⟨v, k, s', hn, -⟩⟩
            · simp at hn
            · exact absurd rfl ((step s _ s' hn).2 v k)
        | none =>
          simp only [hface, Option.bind_eq_bind] at h
          cases hr : reservePoints ip hd.vertex.count 0 with
          | none => exact hP _ hr
          | some u =>
            rw [hr, Option.bind_some, Option.map_eq_none_iff] at h
            have step : ∀ (s : PlyCursor) a s', some (plyData (plyPointsInner T hd.format hd.vertex s).1, (plyPointsInner T hd.format hd.vertex s).2) =
                some (some (.ok a), s') → s'.read.length < s.read.length ∧ ∀ v k, a ≠ .reserve v k := by
              intro s a s' hn
              simp only [Option.some.injEq, Prod.mk.injEq] at hn
              obtain ⟨h1, rfl⟩ := hn
              obtain ⟨p, h2, rfl⟩ := plyData_ok h1
              exact ⟨(plyPointsInner_shorter T _ _ s _).1 p (Prod.ext h2 rfl), by simp⟩
            refine (forEachR_cause h (fun _ _ => True) (fun s => s.read.length) (by simp; omega) trivial
              (fun s _ a s' _ hn => (step s a s' hn).1) (fun _ _ _ _ _ _ _ => trivial) (fun _ _ _ _ _ _ _ _ => trivial)).elim ?_
            rintro s ⟨m1, -, hn | ⟨v, k, s', hn, -⟩⟩
            · simp at hn
            · exact absurd rfl ((step s _ s' hn).2 v k)

/-! ### .obj -/

/-- C96 for .obj meshes: only a face with the vertex number 0 lets loading panic -/
theorem c96_obj_mesh_partial (T : FloatText α) (input : Bytes) (m : TMesh (Point3D α)) (h : loadObjMesh T input m = none) :
    ∃ line ∈ lines input, ∃ a b c, ObjFace line a b c ∧ (a = 0 ∨ b = 0 ∨ c = 0) := by
  obtain ⟨good, ks, rest, e, -, -, hr⟩ := c67_load T input m
  rcases hr with ⟨-, hr⟩ | ⟨bad, rest', k, e2, hk, -, ⟨x, -, hr⟩ | ⟨a, b, c, -, -, hr⟩ | ⟨a, b, c, rfl, h0, -⟩⟩
  · rw [hr] at h; simp at h
  · rw [hr] at h; simp at h
  · rw [hr] at h; simp at h
  · exact ⟨bad, by rw [e, e2]; simp, a, b, c, hk, h0⟩

/-! ### the other formats -/

/-- the numbers of faces of a binary .stl file are checked before they are reserved: of the bytes that are then needed (three vertices of 24 bytes,
three ids of 8 bytes) there are far less than 2^63. -/
theorem c96_stl_reserve (s s' : StlBinaryIter) (n : Nat) (h : stlBinaryNext s = some (some (.ok (.reserve n)), s')) : 3 * n * 24 < 2 ^ 38 := by
  unfold stlBinaryNext at h
  split_ifs at h
  · simp at h
  · split at h
    · simp at h
    · split at h
      · simp at h
      · split_ifs at h with hn
        · simp at h
        · simp only [Option.some.injEq, Prod.mk.injEq, Except.ok.injEq, StlItem.reserve.injEq] at h
          have : maxTrianglesBinary = 1000000000 := rfl
          omega
  · split at h <;> simp at h
  · simp at h

/-- **C96**: loading .xyz, .xy, .psl, .gcode and .stl files and the points of .obj files never panics, whatever the file. -/
theorem c96_total [Add α] (T : FloatText α) (F : FloatText F64) (zero : α) (file : Bytes) :
    (∃ r, loadXyz T file = some r) ∧ (∃ r, loadXy T file = some r) ∧ (∃ r, loadObjPoints T file = some r) ∧
    (∃ r, loadGcode T zero file = some r) ∧ (∃ r, loadPsl file = some r) ∧
    ∀ format, (∀ ip ns, ∃ r, loadStlTriplets F file format ip ns = some r) ∧ (∀ m ns, ∃ r, loadStlMeshDuped F file format m ns = some r) ∧
      ∀ same m ns, ∃ r, loadStlMeshUnique same F file format m ns = some r := by
  refine ⟨?_, ?_, ?_, ?_, ?_, fun format => ⟨fun ip ns => ?_, fun m ns => ?_, fun same m ns => ?_⟩⟩
  · obtain ⟨p, r, h, -⟩ := c58_xyz T file; exact ⟨_, h⟩
  · obtain ⟨p, r, h, -⟩ := c58_xy T file; exact ⟨_, h⟩
  · obtain ⟨_, _, _, _, _, ⟨_, h⟩ | ⟨_, _, _, _, _, h⟩⟩ := c67_points T file <;> exact ⟨_, h⟩
  · obtain ⟨p, r, h, -⟩ := c69_run_partial T zero file; exact ⟨_, h⟩
  · obtain ⟨p, r, h, -⟩ := c68_violated file; exact ⟨_, h⟩
  · obtain ⟨⟨fs, r, hf⟩, h⟩ := c63_loaders F file format
    exact ⟨_, (h fs r hf).1 ip ns⟩
  · obtain ⟨⟨fs, r, hf⟩, h⟩ := c63_loaders F file format
    exact ⟨_, (h fs r hf).2 m ns⟩
  · obtain ⟨⟨fs, r, hf⟩, h⟩ := c63_loaders F file format
    unfold loadStlMeshUnique
    rw [stlForEach_eq (fun _ _ => rfl) hf]
    exact ⟨_, rfl⟩

/-- **C96**: reserving memory has no other effect: what is loaded when nothing panics is what the theorems on the formats say. -/
theorem c96_reserve (T : FloatText α) [Scalar α] (F : FloatText F64) (file : Bytes) :
    (∀ m r, loadOffMeshR T file m = some r → loadOffMesh T file m = some r) ∧
    (∀ r, loadOffPointsR T file [] = some r → loadOffPoints T file = some r) ∧
    (∀ r, loadPtsR T file [] = some r → loadPts T file = some r) ∧
    (∀ r, loadPtxR T file [] = some r → loadPtx T file = some r) ∧
    (∀ r, loadLasR file [] = some r → loadLas file = some r) ∧
    (∀ m r, loadPlyMeshR F file m = some r → loadPlyMesh F file m = some r) ∧
    (∀ ip r, loadPlyPointsR F file ip = some r → loadPlyPoints F file ip = some r) ∧
    (∀ m ip r, loadPlyEitherR F file m ip = some r → loadPlyEither F file m ip = some r) := by
  refine ⟨fun m r h => ?_, fun r h => ?_, fun r h => ?_, fun r h => ?_, fun r h => ?_, fun m r h => ?_, fun ip r h => ?_, fun m ip r h => ?_⟩
  · exact forEachR_forEach (fun _ _ _ => rfl) _ _ _ h
  · exact forEachR_forEach (fun _ _ _ => rfl) _ _ _ h
  · exact forEachR_forEach (fun _ _ _ => rfl) _ _ _ h
  · exact forEachR_forEach (fun _ _ _ => rfl) _ _ _ h
  · exact forEachR_forEach (fun _ _ _ => rfl) _ _ _ h
  · unfold loadPlyMeshR at h
    unfold loadPlyMesh
    split at h
    · simp at h
    · rename_i e; rw [e]; exact h
    · rename_i e; rw [e]; exact forEachR_forEach (fun _ _ _ => rfl) _ _ _ h
  · unfold loadPlyPointsR at h
    unfold loadPlyPoints
    split at h
    · simp at h
    · rename_i e; rw [e]; exact h
    · rename_i e; rw [e]; exact forEachR_forEach (fun _ _ _ => rfl) _ _ _ h
  · unfold loadPlyEitherR at h
    unfold loadPlyEither
    split at h
    · simp at h
    · rename_i e; rw [e]; exact h
    · rename_i hd rest i e
      rw [e]
      dsimp only
      split at h
      · rename_i f ef
        rw [ef]
        simp only [Option.bind_eq_bind, Option.bind_eq_some_iff, Option.map_eq_some_iff] at h
        obtain ⟨-, -, x, hx, rfl⟩ := h
        dsimp only
        rw [forEachR_forEach (fun _ _ _ => rfl) _ _ _ hx]
        rfl
      · rename_i ef
        rw [ef]
        simp only [Option.bind_eq_bind, Option.bind_eq_some_iff, Option.map_eq_some_iff] at h
        obtain ⟨-, -, x, hx, rfl⟩ := h
        dsimp only
        rw [forEachR_forEach (fun _ _ _ => rfl) _ _ _ hx]
        rfl

/-! ### the panics are there -/

/-- C96 is violated: files of a few bytes announcing 10^19 points or faces -/
theorem c96_violated_counts :
    loadOffMeshR natText b!"OFF\n9999999999999999999 1 0\n" ⟨[], []⟩ = none ∧
    loadOffMeshR natText b!"OFF\n3 9999999999999999999 0\n" ⟨[], []⟩ = none ∧
    loadOffPointsR natText b!"OFF\n9999999999999999999 1 0\n" [] = none ∧
    loadPtsR natText b!"9999999999999999999\n" [] = none ∧
    loadPtxR natF64 b!"4294967296\n4294967296\n0 0 0\n1 0 0\n0 1 0\n0 0 1\n1 0 0 0\n0 1 0 0\n0 0 1 0\n0 0 0 1\n" [] = none ∧
    loadPtxR natF64 b!"2147483648\n2147483648\n0 0 0\n1 0 0\n0 1 0\n0 0 1\n1 0 0 0\n0 1 0 0\n0 0 1 0\n0 0 0 1\n" [] = none := by
  decide +kernel

/-- the same for .ply files -/
theorem c96_violated_ply : ∃ file : Bytes, file = b!"ply\nformat ascii 1.0\nelement vertex 9999999999999999999\nproperty float x\n" ++
      b!"property float y\nproperty float z\nelement face 1\nproperty list uchar int vertex_indices\nend_header\n" ∧
    loadPlyMeshR natF64 file ⟨[], []⟩ = none ∧ loadPlyPointsR natF64 file [] = none ∧ loadPlyEitherR natF64 file ⟨[], []⟩ [] = none := by
  refine ⟨_, rfl, ?_⟩
  decide +kernel

/-- the same for .las files: 375 bytes announcing 2^63 points -/
theorem c96_violated_las : ∃ file : Bytes, file.length = 375 ∧ loadLasR file [] = none :=
  ⟨exampleLas 4 0 20 0 (2 ^ 63) [], by decide +kernel, by decide +kernel⟩

/-- the conditions of the theorems are met: announced numbers that fit and are not kept -/
example : ¬FourAxes b!"ply\nformat ascii 1.0\nelement vertex 2\nproperty float x\nproperty float y\nproperty float z\nend_header\n1 2 3\n4 5 6\n" ∧
    FourAxes b!"ply\nformat ascii 1.0\nelement vertex 0\nproperty float x\nproperty float y\nproperty float z\nproperty float x\n" := by
  unfold FourAxes
  decide +kernel

example : loadOffMeshR natText b!"OFF\n100000 100000 0\n1 2 3\n" ⟨[], []⟩ = some (⟨[⟨1, 2, 3⟩], []⟩, .ok ()) ∧
    loadPtsR natText b!"100000\n1 2 3\n" [] = some ([⟨1, 2, 3⟩], .ok ()) := by
  decide +kernel

/-- binary STL data that announces two triangles -/
example : ∃ s s', s = ⟨List.replicate 75 0 ++ [2, 0, 0, 0], false, false, 0, 0⟩ ∧
    stlBinaryNext s = some (some (.ok (.reserve 2)), s') := ⟨_, _, rfl, by rfl⟩

end R3D

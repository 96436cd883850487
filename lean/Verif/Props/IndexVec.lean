import Verif.Lemmas.IndexVec
/-
C01, C02: index containers against a plain list of indices.
-/
namespace R3D.IndexVecSpec

/-- The public calls on an index container. -/
inductive Op where
  | push (x : Nat) | set (i x : Nat) | get (i : Nat) | len | reserve (n : Nat)
  | ensureSupported (x : Nat) | iter
deriving DecidableEq, Repr

/-- What a call shows to the caller. -/
inductive Obs where
  | unit | val (n : Nat) | vals (l : List Nat)
deriving DecidableEq, Repr

/-- Specification: the same calls on a mathematical list; `none` = the call panics
(index out of range). -/
def specStep (l : List Nat) : Op → Option (List Nat × Obs)
  | .push x => some (l ++ [x], .unit)
  | .set i x => if i < l.length then some (l.set i x, .unit) else none
  | .get i => l[i]?.map fun x => (l, .val x)
  | .len => some (l, .val l.length)
  | .reserve _ => some (l, .unit)
  | .ensureSupported _ => some (l, .unit)
  | .iter => some (l, .vals l)

/-- The same calls on a container of the library. -/
def step {C : Type} [IndexContainer C] (c : C) : Op → Option (C × Obs)
  | .push x => some (IndexContainer.push c x, .unit)
  | .set i x => (IndexContainer.set c i x).map fun c => (c, .unit)
  | .get i => (IndexContainer.get c i).map fun x => (c, .val x)
  | .len => some (c, .val (IndexContainer.len c))
  | .reserve n => some (IndexContainer.reserve c n, .unit)
  | .ensureSupported x => some (IndexContainer.ensureSupported c x, .unit)
  | .iter => (IndexContainer.iter c).map fun l => (c, .vals l)

/-- Everything a caller sees while running a history: the observations up to the
first panic and whether it panicked. -/
def trace {S : Type} (f : S → Op → Option (S × Obs)) (s : S) : List Op → List Obs × Bool
  | [] => ([], false)
  | op :: ops =>
    match f s op with
    | none => ([], true)
    | some (s', o) => let r := trace f s' ops; (o :: r.1, r.2)

/-- Values written by an operation. -/
def Op.written : Op → List Nat
  | .push x => [x]
  | .set _ x => [x]
  | _ => []

end R3D.IndexVecSpec

namespace R3D
open IndexVecSpec IndexContainer LawfulIndexContainer

theorem step_refines {C : Type} [IndexContainer C] [LawfulIndexContainer C] (c : C) (op : Op)
    (h : ∀ x ∈ op.written, fits C x) :
    (step c op).map (fun r => (toList r.1, r.2)) = specStep (toList c) op := by
  cases op with
  | push x => simp [step, specStep, push_eq c x (h x (by simp [Op.written]))]
  | set i x =>
    have := set_eq c i x (h x (by simp [Op.written]))
    simp only [step, specStep, Option.map_map, vecSet] at *
    cases hs : IndexContainer.set c i x <;> rw [hs] at this <;>
      (by_cases hi : i < (toList c).length <;> simp_all)
  | get i => simp [step, specStep, get_eq, Function.comp_def]
  | len => simp [step, specStep, len_eq]
  | reserve n => simp [step, specStep, toList_reserve]
  | ensureSupported x => simp [step, specStep, toList_ensure]
  | iter => simp [step, specStep, iter_eq]

theorem trace_refines {C : Type} [IndexContainer C] [LawfulIndexContainer C]
    (ops : List Op) (c : C) (h : ∀ op ∈ ops, ∀ x ∈ op.written, fits C x) :
    trace step c ops = trace specStep (toList c) ops := by
  induction ops generalizing c with
  | nil => rfl
  | cons op ops ih =>
    have h1 := step_refines c op (h op (by simp))
    simp only [trace]
    cases hs : step c op with
    | none => simp only [hs, Option.map_none] at h1; rw [← h1]
    | some r =>
      simp only [hs, Option.map_some] at h1
      rw [← h1]
      simp only
      rw [ih r.1 (fun op ho => h op (by simp [ho]))]

/-- **C01.** Every history of calls on a `DynamicPrecisionIndexVec`, whatever storage
width it is currently in, shows the caller exactly what a list shows. -/
theorem c01_dynvec_refines_list (c : DynVec) (l : List Nat) (hc : IndexContainer.iter c = some l)
    (ops : List Op) : trace step c ops = trace specStep l ops := by
  have : l = toList c := by simpa [iter_eq] using hc.symm
  subst this
  exact trace_refines ops c (by intros; trivial)

example : IndexContainer.iter (DynVec.push (DynVec.push (DynVec.u8 []) 7) 70000) = some [7, 70000] := by
  decide

/-- **C01.** All constructors start from the contents they were given. -/
theorem c01_constructors (n x : Nat) (l : List Nat) (b : List UInt8) :
    IndexContainer.iter (IndexContainer.default : DynVec) = some [] ∧
    IndexContainer.iter (IndexContainer.withCapacity n : DynVec) = some [] ∧
    IndexContainer.iter (IndexContainer.withSupportFor x : DynVec) = some [] ∧
    IndexContainer.iter (IndexContainer.withCapacityAndSupportFor n x : DynVec) = some [] ∧
    IndexContainer.iter (DynVec.ofList l) = some l ∧
    IndexContainer.iter (DynVec.ofU8 b) = some (b.map UInt8.toNat) := by
  simp only [iter_eq, withCapacity, withSupportFor, withCapacityAndSupportFor, toList_reserve,
    toList_ensure, toList_default, true_and]
  refine ⟨?_, rfl⟩
  unfold DynVec.ofList
  cases hm : l.max? with
  | none => rw [List.max?_eq_none_iff] at hm; subst hm; rfl
  | some m =>
    show some (DynVec.toList _) = _
    rw [DynVec.toList_foldl_push, DynVec.toList_ensureSupported]
    rfl

/-- **C01.** Widening to `usize` on request shows the same contents and changes nothing. -/
theorem c01_get_usize_upgraded (c : DynVec) (l : List Nat) (hc : IndexContainer.iter c = some l) :
    ∃ c', c.getUsizeUpgraded = some (c', l) ∧ IndexContainer.iter c' = some l := by
  have : l = DynVec.toList c := by
    have := hc; rw [iter_eq] at this; exact (Option.some.inj this).symm
  subst this
  refine ⟨DynVec.usize c.toList, ?_, ?_⟩
  · cases c <;> simp [DynVec.getUsizeUpgraded, DynVec.upgradeToUsize, DynVec.toList]
  · rw [iter_eq]; rfl

/-- **C02** (what holds): histories writing only values below `2^32` behave like a list. -/
theorem c02_u32vec_refines_list_partial (c : U32Vec) (l : List Nat)
    (hc : IndexContainer.iter c = some l) (ops : List Op)
    (hfit : ∀ op ∈ ops, ∀ x ∈ op.written, x < 2^32) :
    trace step c ops = trace specStep l ops := by
  have : l = toList c := by simpa [iter_eq] using hc.symm
  subst this
  exact trace_refines ops c hfit

example : IndexContainer.iter (⟨[1, 4294967295]⟩ : U32Vec) = some [1, 4294967295] := by decide

/-- **C02 violated.** Pushing `2^32` (a legal `usize`) and reading it back gives `0`. -/
theorem c02_u32vec_not_faithful :
    ∃ ops : List Op, trace step (⟨[]⟩ : U32Vec) ops ≠ trace specStep [] ops :=
  ⟨[.push (2^32), .get 0], by decide⟩

/-- **C02.** Exactly what is stored: the value modulo `2^32`; so the container is faithful
for precisely the values below `2^32`. -/
theorem c02_u32vec_push_get (c : U32Vec) (x : Nat) :
    IndexContainer.get (IndexContainer.push c x) (IndexContainer.len c) = some x ↔ x < 2^32 := by
  simp only [IndexContainer.get, IndexContainer.push, IndexContainer.len]
  simp only [List.getElem?_append_right (Nat.le_refl _), Nat.sub_self, List.getElem?_cons_zero,
    Option.map_some, asU32_toNat_mod, Option.some.injEq]
  constructor
  · intro h; rw [← h]; exact Nat.mod_lt _ (by decide)
  · exact Nat.mod_eq_of_lt

end R3D

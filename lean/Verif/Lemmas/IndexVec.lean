import Verif.Model.IndexVec
/-
Helper lemmas about the index containers: an abstraction `toList` per container and
the simulation facts.
-/
namespace R3D

theorem asU8_toNat {x : Nat} (h : x ≤ 255) : (asU8 x).toNat = x := by
  simp only [asU8, UInt8.toNat_ofNat']; omega
theorem asU16_toNat {x : Nat} (h : x ≤ 65535) : (asU16 x).toNat = x := by
  simp only [asU16, UInt16.toNat_ofNat']; omega
theorem asU32_toNat {x : Nat} (h : x ≤ 4294967295) : (asU32 x).toNat = x := by
  simp only [asU32, UInt32.toNat_ofNat']; omega
theorem asU32_toNat_mod (x : Nat) : (asU32 x).toNat = x % 2^32 := by
  simp only [asU32, UInt32.toNat_ofNat']

/-- A container refines a list for the values satisfying `fits`. -/
class LawfulIndexContainer (C : Type) [IndexContainer C] where
  fits : Nat → Prop
  toList : C → List Nat
  toList_default : toList (IndexContainer.default : C) = []
  toList_reserve : ∀ (c : C) n, toList (IndexContainer.reserve c n) = toList c
  toList_ensure : ∀ (c : C) x, toList (IndexContainer.ensureSupported c x) = toList c
  len_eq : ∀ c : C, IndexContainer.len c = (toList c).length
  get_eq : ∀ (c : C) i, IndexContainer.get c i = (toList c)[i]?
  push_eq : ∀ (c : C) x, fits x → toList (IndexContainer.push c x) = toList c ++ [x]
  set_eq : ∀ (c : C) i x, fits x →
    (IndexContainer.set c i x).map toList = vecSet (toList c) i x

instance : LawfulIndexContainer (List Nat) where
  fits _ := True
  toList c := c
  toList_default := rfl
  toList_reserve _ _ := rfl
  toList_ensure _ _ := rfl
  len_eq _ := rfl
  get_eq _ _ := rfl
  push_eq _ _ _ := rfl
  set_eq c i x _ := by simp [IndexContainer.set]

namespace DynVec

def toList : DynVec → List Nat
  | u8 v => v.map UInt8.toNat
  | u16 v => v.map UInt16.toNat
  | u32 v => v.map UInt32.toNat
  | usize v => v

theorem toList_upgradeToUsize (c : DynVec) : c.upgradeToUsize.toList = c.toList := by
  cases c <;> simp [upgradeToUsize, toList]

theorem map_u32 (v : List UInt8) :
    (v.map fun x => asU32 x.toNat).map UInt32.toNat = v.map UInt8.toNat := by
  simp only [List.map_map]; congr 1; funext x
  have := x.toNat_lt
  exact asU32_toNat (by omega)

theorem map_u32' (v : List UInt16) :
    (v.map fun x => asU32 x.toNat).map UInt32.toNat = v.map UInt16.toNat := by
  simp only [List.map_map]; congr 1; funext x
  have := x.toNat_lt
  exact asU32_toNat (by omega)

theorem map_u16 (v : List UInt8) :
    (v.map fun x => asU16 x.toNat).map UInt16.toNat = v.map UInt8.toNat := by
  simp only [List.map_map]; congr 1; funext x
  have := x.toNat_lt
  exact asU16_toNat (by omega)

theorem toList_upgradeToU32 (c : DynVec) : c.upgradeToU32.toList = c.toList := by
  cases c with
  | u8 v => exact map_u32 v
  | u16 v => exact map_u32' v
  | _ => rfl

theorem toList_upgradeToU16 (c : DynVec) : c.upgradeToU16.toList = c.toList := by
  cases c with
  | u8 v => exact map_u16 v
  | _ => rfl

theorem toList_ensureSupported (c : DynVec) (x : Nat) :
    (c.ensureSupported x).toList = c.toList := by
  unfold ensureSupported
  split
  · rfl
  · split
    · exact toList_upgradeToUsize c
    · split
      · exact toList_upgradeToU32 c
      · split
        · exact toList_upgradeToU16 c
        · rfl

/-- After `ensure_supported x` the mode can hold `x` (or is already `usize`). -/
theorem ensureSupported_max (c : DynVec) (x : Nat) :
    x ≤ (c.ensureSupported x).allowedMax ∨ ∃ v, c.ensureSupported x = usize v := by
  unfold ensureSupported
  split
  · left; assumption
  · split
    · right; cases c <;> simp [upgradeToUsize]
    · split
      · cases c <;> simp_all [upgradeToU32, allowedMax] <;> omega
      · split
        · cases c <;> simp_all [upgradeToU16, allowedMax] <;> omega
        · cases c <;> simp_all [allowedMax] <;> omega

theorem toList_push (c : DynVec) (x : Nat) : (c.push x).toList = c.toList ++ [x] := by
  rw [← toList_ensureSupported c x]
  have h := ensureSupported_max c x
  unfold push
  generalize c.ensureSupported x = d at h
  cases d with
  | u8 v => simp [allowedMax] at h; simp [toList, asU8_toNat h]
  | u16 v => simp [allowedMax] at h; simp [toList, asU16_toNat h]
  | u32 v => simp [allowedMax] at h; simp [toList, asU32_toNat h]
  | usize v => simp [toList]

theorem map_vecSet {α β : Type} (f : α → β) (v : List α) (i : Nat) (x : α) :
    (vecSet v i x).map (List.map f) = vecSet (v.map f) i (f x) := by
  unfold vecSet; by_cases h : i < v.length <;> simp [h]

theorem toList_set (c : DynVec) (i x : Nat) :
    (c.set i x).map toList = vecSet c.toList i x := by
  rw [← toList_ensureSupported c x]
  have h := ensureSupported_max c x
  unfold set
  generalize c.ensureSupported x = d at h
  cases d with
  | u8 v =>
    simp [allowedMax] at h
    have := map_vecSet UInt8.toNat v i (asU8 x)
    rw [asU8_toNat h] at this
    simpa [toList, Function.comp_def] using this
  | u16 v =>
    simp [allowedMax] at h
    have := map_vecSet UInt16.toNat v i (asU16 x)
    rw [asU16_toNat h] at this
    simpa [toList, Function.comp_def] using this
  | u32 v =>
    simp [allowedMax] at h
    have := map_vecSet UInt32.toNat v i (asU32 x)
    rw [asU32_toNat h] at this
    simpa [toList, Function.comp_def] using this
  | usize v =>
    simp [toList, Function.comp_def]

theorem toList_foldl_push (l : List Nat) (c : DynVec) :
    (l.foldl push c).toList = c.toList ++ l := by
  induction l generalizing c with
  | nil => simp
  | cons a l ih => simp [ih, toList_push]

end DynVec

instance : LawfulIndexContainer DynVec where
  fits _ := True
  toList := DynVec.toList
  toList_default := rfl
  toList_reserve _ _ := rfl
  toList_ensure := DynVec.toList_ensureSupported
  len_eq c := by cases c <;> simp [IndexContainer.len, DynVec.len, DynVec.toList]
  get_eq c i := by cases c <;> simp [IndexContainer.get, DynVec.get, DynVec.toList]
  push_eq c x _ := DynVec.toList_push c x
  set_eq c i x _ := DynVec.toList_set c i x

instance : LawfulIndexContainer U32Vec where
  fits x := x < 2^32
  toList c := c.data.map UInt32.toNat
  toList_default := rfl
  toList_reserve _ _ := rfl
  toList_ensure _ _ := rfl
  len_eq c := by simp [IndexContainer.len]
  get_eq c i := by simp [IndexContainer.get]
  push_eq c x h := by simp [IndexContainer.push, asU32_toNat (x := x) (by omega)]
  set_eq c i x h := by
    have := DynVec.map_vecSet UInt32.toNat c.data i (asU32 x)
    rw [asU32_toNat (by omega)] at this
    simpa [IndexContainer.set, Function.comp_def] using this

open IndexContainer LawfulIndexContainer in
theorem iterFrom_eq {C : Type} [IndexContainer C] [LawfulIndexContainer C] (c : C)
    (i rem : Nat) (h : i + rem ≤ (toList c).length) :
    iterFrom c i rem = some (((toList c).drop i).take rem) := by
  induction rem generalizing i with
  | zero => simp [iterFrom]
  | succ n ih =>
    have hi : i < (toList c).length := by omega
    simp only [iterFrom, get_eq, List.getElem?_eq_getElem hi, ih (i+1) (by omega)]
    have e := List.drop_eq_getElem_cons hi
    rw [e, List.take_succ_cons]
    rfl

open IndexContainer LawfulIndexContainer in
theorem iter_eq {C : Type} [IndexContainer C] [LawfulIndexContainer C] (c : C) :
    iter c = some (toList c) := by
  unfold iter
  rw [len_eq, iterFrom_eq c 0 _ (by omega)]
  simp

end R3D

import Verif.Model.Basic
/-
Index containers: `/repo/src/is_index_container.rs`, `/repo/src/dynamic_precision_index_vec.rs`,
`/repo/src/u32_index_vec.rs`, `/repo/src/impls/vec.rs` L146-174.
`usize` is `Nat` (every Rust value is `< 2^64`, the theorems do not need that bound).
`reserve` only affects capacity and is the identity on contents.
-/
namespace R3D

/-- `/repo/src/is_index_container.rs` L27-70 (`None` of `get`/`set` = panic). -/
class IndexContainer (C : Type) where
  default : C
  reserve : C → Nat → C
  ensureSupported : C → Nat → C
  len : C → Nat
  get : C → Nat → Panics Nat
  set : C → Nat → Nat → Panics C
  push : C → Nat → C

namespace IndexContainer
variable {C : Type} [IndexContainer C]

/-- is_index_container.rs L50-54 -/
def withCapacity (n : Nat) : C := reserve (default : C) n
/-- is_index_container.rs L57-61 -/
def withSupportFor (x : Nat) : C := ensureSupported (default : C) x
/-- is_index_container.rs L64-69 -/
def withCapacityAndSupportFor (n x : Nat) : C := reserve (ensureSupported (default : C) x) n

/-- is_index_container.rs L84-112: the iterator holds `index` and `max` and yields
`get index` while `index < max`; here everything from state `index` with
`rem = max - index` steps left. -/
def iterFrom (c : C) (index : Nat) : (rem : Nat) → Panics (List Nat)
  | 0 => some []
  | rem + 1 => do
      let x ← get c index
      let xs ← iterFrom c (index + 1) rem
      return x :: xs

/-- is_index_container.rs L88-94: `iter` starts at 0 with `max = len`. -/
def iter (c : C) : Panics (List Nat) := iterFrom c 0 (len c)

end IndexContainer

/-- `/repo/src/impls/vec.rs` L146-174: `Vec<usize>`. -/
instance : IndexContainer (List Nat) where
  default := []
  reserve c _ := c
  ensureSupported c _ := c
  len c := c.length
  get c i := c[i]?
  set c i x := vecSet c i x
  push c x := c ++ [x]

/-- `/repo/src/dynamic_precision_index_vec.rs` L33-35 and L330-335: the storage modes. -/
inductive DynVec where
  | u8 (v : List UInt8)
  | u16 (v : List UInt16)
  | u32 (v : List UInt32)
  | usize (v : List Nat)
deriving DecidableEq, Repr

namespace DynVec

/-- `/repo/src/dynamic_precision_index_vec.rs` L118-136 -/
def upgradeToUsize : DynVec → DynVec
  | u8 v => usize (v.map UInt8.toNat)
  | u16 v => usize (v.map UInt16.toNat)
  | u32 v => usize (v.map UInt32.toNat)
  | usize v => usize v

/-- `/repo/src/dynamic_precision_index_vec.rs` L138-153 -/
def upgradeToU32 : DynVec → DynVec
  | u8 v => u32 (v.map fun x => asU32 x.toNat)
  | u16 v => u32 (v.map fun x => asU32 x.toNat)
  | u32 v => u32 v
  | usize v => usize v

/-- `/repo/src/dynamic_precision_index_vec.rs` L155-167 -/
def upgradeToU16 : DynVec → DynVec
  | u8 v => u16 (v.map fun x => asU16 x.toNat)
  | u16 v => u16 v
  | u32 v => u32 v
  | usize v => usize v

/-- `/repo/src/dynamic_precision_index_vec.rs` L169-176 -/
def allowedMax : DynVec → Nat
  | u8 _ => 255
  | u16 _ => 65535
  | u32 _ => 4294967295
  | usize _ => 18446744073709551615

/-- `/repo/src/dynamic_precision_index_vec.rs` L182-194 -/
def ensureSupported (c : DynVec) (x : Nat) : DynVec :=
  if x ≤ c.allowedMax then c
  else if x > 4294967295 then c.upgradeToUsize
  else if x > 65535 then c.upgradeToU32
  else if x > 255 then c.upgradeToU16
  else c

/-- `/repo/src/dynamic_precision_index_vec.rs` L196-203 -/
def get : DynVec → Nat → Panics Nat
  | u8 v, i => v[i]?.map UInt8.toNat
  | u16 v, i => v[i]?.map UInt16.toNat
  | u32 v, i => v[i]?.map UInt32.toNat
  | usize v, i => v[i]?

/-- `/repo/src/dynamic_precision_index_vec.rs` L205-214 -/
def set (c : DynVec) (i x : Nat) : Panics DynVec :=
  match c.ensureSupported x with
  | u8 v => (vecSet v i (asU8 x)).map u8
  | u16 v => (vecSet v i (asU16 x)).map u16
  | u32 v => (vecSet v i (asU32 x)).map u32
  | usize v => (vecSet v i x).map usize

/-- `/repo/src/dynamic_precision_index_vec.rs` L216-225 -/
def push (c : DynVec) (x : Nat) : DynVec :=
  match c.ensureSupported x with
  | u8 v => u8 (v ++ [asU8 x])
  | u16 v => u16 (v ++ [asU16 x])
  | u32 v => u32 (v ++ [asU32 x])
  | usize v => usize (v ++ [x])

/-- `/repo/src/dynamic_precision_index_vec.rs` L227-234 -/
def len : DynVec → Nat
  | u8 v => v.length
  | u16 v => v.length
  | u32 v => v.length
  | usize v => v.length

/-- `/repo/src/dynamic_precision_index_vec.rs` L181-248 and L337-341 (default mode `U8`). -/
instance : IndexContainer DynVec where
  default := u8 []
  reserve c _ := c
  ensureSupported := ensureSupported
  len := len
  get := get
  set := set
  push := push

/-- `/repo/src/dynamic_precision_index_vec.rs` L250-263 (`From<&Vec<usize>>`); the `From<Vec<u32>>` (L271) and `From<Vec<u16>>` (L292)
versions are the same after widening the elements. -/
def ofList (v : List Nat) : DynVec :=
  match v.max? with
  | none => u8 []
  | some m => v.foldl push (ensureSupported (u8 []) m)

/-- `/repo/src/dynamic_precision_index_vec.rs` L319-325 (`From<Vec<u8>>`). -/
def ofU8 (v : List UInt8) : DynVec := u8 v

/-- `/repo/src/dynamic_precision_index_vec.rs` L102-108 (`get_usize_upgraded`): the widened container and its contents. -/
def getUsizeUpgraded (c : DynVec) : Panics (DynVec × List Nat) :=
  match c.upgradeToUsize with
  | usize v => some (usize v, v)
  | _ => none

end DynVec

/-- `/repo/src/u32_index_vec.rs` L31-61. -/
structure U32Vec where
  data : List UInt32
deriving DecidableEq, Repr

/-- `/repo/src/u32_index_vec.rs` L31-61 -/
instance : IndexContainer U32Vec where
  default := ⟨[]⟩
  reserve c _ := c
  ensureSupported c _ := c
  len c := c.data.length
  get c i := c.data[i]?.map UInt32.toNat
  set c i x := (vecSet c.data i (asU32 x)).map U32Vec.mk
  push c x := ⟨c.data ++ [asU32 x]⟩

end R3D

import Verif.Model.Basic
/-
Rust's `slice::sort` / `sort_by` (std, not part of /repo): a stable sort. Modelled by insertion
sort, which is stable and structurally recursive (so it can be evaluated by the kernel). For a
comparator that is a total preorder the result of a stable sort is unique, so the choice of the
algorithm is not observable. For inconsistent comparators (NaN) std leaves the order unspecified.
-/
namespace R3D

/-- Insert before the first element that is not smaller, for `/repo/src/functions.rs` L113 -/
def sortInsert {α : Type} (le : α → α → Bool) (a : α) : List α → List α
  | [] => [a]
  | b :: l => if le a b then a :: b :: l else b :: sortInsert le a l

/-- Stable sort w.r.t. `le` (`le a b` = "a may stay before b", i.e. comparator ≠ Greater). 
`sort_by` of the standard library, `/repo/src/functions.rs` L113, L126, L139, L153, L167 -/
def stableSort {α : Type} (le : α → α → Bool) : List α → List α
  | [] => []
  | a :: l => sortInsert le a (stableSort le l)

end R3D

import Verif.Model.PointCloud
import Verif.Lemmas.Sort
import Verif.Spec.Geom
import Mathlib.Algebra.BigOperators.Fin
import Mathlib.Data.List.Rotate
/-!
C51 point clouds behave like lists, C52 insertion is uniform across containers, C53 sorting helpers,
C55 polygon segments form one closed cycle.
-/
namespace R3D
open Scalar LawfulScalar Spec

/-! ## C51 -/

namespace PointCloud
variable {P : Type}

/-- the editing operations of a point cloud -/
inductive Op (P : Type) where
  | push (p : P)
  | insert (i : Nat) (p : P)
  | set (i : Nat) (p : P)
  | append (ra : List P)
  | consume (other : List P)
  | combine (other : List P)

/-- one operation on the cloud: new cloud and result, `none` = panic -/
def step (pc : PointCloud P) : Op P → Panics (PointCloud P × Res Unit)
  | .push p => some (pc.push p, .ok ())
  | .insert i p => some (pc.insert i p)
  | .set i p => (pc.set i p).map fun c => (c, .ok ())
  | .append ra => (pc.appendRa ra).map fun c => (c, .ok ())
  | .consume o => some (pc.consume ⟨o⟩, .ok ())
  | .combine o => some (pc.combine ⟨o⟩, .ok ())

/-- a history: the cloud at the end and the results of the calls -/
def run : List (Op P) → PointCloud P → Panics (PointCloud P × List (Res Unit))
  | [], pc => some (pc, [])
  | o :: os, pc => do
    let (pc', r) ← pc.step o
    let (pc'', rs) ← run os pc'
    some (pc'', r :: rs)

end PointCloud

/-- what an operation means for a list -/
def Spec.listStep {P : Type} (l : List P) : PointCloud.Op P → Option (List P × Res Unit)
  | .push p => some (l ++ [p], .ok ())
  | .insert i p => if i ≤ l.length then some (l.insertIdx i p, .ok ()) else some (l, .error .IncorrectVertexID)
  | .set i p => if i < l.length then some (l.set i p, .ok ()) else none
  | .append r => some (l ++ r, .ok ())
  | .consume r => some (l ++ r, .ok ())
  | .combine r => some (l ++ r, .ok ())

/-- what a history means for a list -/
def Spec.listRun {P : Type} : List (PointCloud.Op P) → List P → Option (List P × List (Res Unit))
  | [], l => some (l, [])
  | o :: os, l => do
    let (l', r) ← listStep l o
    let (l'', rs) ← listRun os l'
    some (l'', r :: rs)

namespace PointCloud
variable {P : Type}

theorem foldl_push (l : List P) (pc : PointCloud P) : (l.foldl push pc).data = pc.data ++ l := by
  induction l generalizing pc with
  | nil => simp
  | cons a l ih => simp [ih, push]

theorem appendLoop_eq (ra : List P) (n : Nat) (hn : n ≤ ra.length) (pc : PointCloud P) :
    appendLoop ra (List.range' (ra.length - n) n) pc = some ⟨pc.data ++ ra.drop (ra.length - n)⟩ := by
  induction n generalizing pc with
  | zero => simp [appendLoop]
  | succ n ih =>
    have hlt : ra.length - (n + 1) < ra.length := by omega
    rw [List.range'_succ, appendLoop]
    simp only [List.getElem?_eq_getElem hlt, Option.bind_eq_bind, Option.bind_some]
    have e : ra.length - (n + 1) + 1 = ra.length - n := by omega
    rw [e, ih (by omega)]
    simp only [push, List.append_assoc, List.singleton_append]
    rw [List.drop_eq_getElem_cons hlt, e]

theorem appendRa_eq (pc : PointCloud P) (ra : List P) : pc.appendRa ra = some ⟨pc.data ++ ra⟩ := by
  have := appendLoop_eq ra ra.length (Nat.le_refl _) pc
  simpa [appendRa, List.range_eq_range'] using this

theorem insertIdx_eq (l : List P) (i : Nat) (p : P) (h : i ≤ l.length) :
    l.insertIdx i p = l.take i ++ p :: l.drop i := by
  induction l generalizing i with
  | nil => obtain rfl : i = 0 := by simpa using h
           simp
  | cons a l ih =>
    cases i with
    | zero => simp
    | succ i => simp [ih i (by simpa using h)]

theorem step_eq (l : List P) (o : Op P) :
    step ⟨l⟩ o = (listStep l o).map fun x => (⟨x.1⟩, x.2) := by
  cases o with
  | push p => rfl
  | insert i p =>
    by_cases h : i ≤ l.length
    · have hn : ¬ i > l.length := by omega
      simp only [step, listStep, insert, len, if_neg hn, if_pos h, insertIdx_eq l i p h, Option.map_some]
    · have hn : i > l.length := by omega
      simp only [step, listStep, insert, len, if_pos hn, if_neg h, Option.map_some]
  | set i p =>
    simp only [step, listStep, set, vecSet]
    by_cases h : i < l.length <;> simp [h]
  | append ra => simp [step, listStep, appendRa_eq]
  | consume r =>
    have := foldl_push r ⟨l⟩
    simp only [step, listStep, consume, Option.map_some]
    cases h : List.foldl push ⟨l⟩ r
    simp_all
  | combine r =>
    have := foldl_push r ⟨l⟩
    simp only [step, listStep, combine, consume, Option.map_some]
    cases h : List.foldl push ⟨l⟩ r
    simp_all

/-- **C51** every history of editing operations acts on the cloud exactly as on a list: same content, same
results, and a panic exactly for writing beyond the end. -/
theorem c51_history (ops : List (Op P)) (l : List P) :
    run ops ⟨l⟩ = (listRun ops l).map fun x => (⟨x.1⟩, x.2) := by
  induction ops generalizing l with
  | nil => rfl
  | cons o os ih =>
    simp only [run, listRun, step_eq]
    cases h : listStep l o with
    | none => simp
    | some x =>
      obtain ⟨l', r⟩ := x
      simp only [Option.map_some, Option.bind_eq_bind, Option.bind_some, ih]
      cases listRun os l' <;> simp

example : run [Op.push 1, .insert 0 2, .insert 5 9, .set 1 7, .append [4, 5], .consume [6]] ⟨([] : List Nat)⟩
    = some (⟨[2, 7, 4, 5, 6]⟩, [.ok (), .ok (), .error .IncorrectVertexID, .ok (), .ok (), .ok ()]) := by
  decide +kernel

/-- **C51** reading: `len`, `get_d` and indexing agree with the list, `new` is empty. -/
theorem c51_read (pc : PointCloud P) (i : Nat) :
    (new : PointCloud P).data = [] ∧ pc.len = pc.data.length ∧
    (∀ h : i < pc.len, pc.get i = some (pc.data[i]'h) ∧ pc.index i = some (pc.data[i]'h)) ∧
    (pc.len ≤ i → pc.get i = none ∧ pc.index i = none) := by
  refine ⟨rfl, rfl, fun h => ?_, fun h => ?_⟩
  · have h' : i < pc.data.length := h
    exact ⟨List.getElem?_eq_getElem h', List.getElem?_eq_getElem h'⟩
  · exact ⟨List.getElem?_eq_none h, List.getElem?_eq_none h⟩

/-- **C51** `insert` in detail: it succeeds for every index up to and including `len`, keeps what is before the
index, puts the new element at the index and moves the rest by one; beyond `len` it fails and changes
nothing. -/
theorem c51_insert (pc : PointCloud P) (i : Nat) (p : P) :
    (i ≤ pc.len → ∃ pc', pc.insert i p = (pc', .ok ()) ∧ pc'.len = pc.len + 1 ∧
      (∀ j < i, pc'.get j = pc.get j) ∧ pc'.get i = some p ∧ ∀ j, i ≤ j → pc'.get (j + 1) = pc.get j) ∧
    (pc.len < i → pc.insert i p = (pc, .error .IncorrectVertexID)) := by
  constructor
  · intro h
    have h' : i ≤ pc.data.length := h
    refine ⟨_, by rw [insert, if_neg (by omega)], ?_, ?_, ?_, ?_⟩
    · simp [len]; omega
    · intro j hj
      simp only [get]
      rw [List.getElem?_append_left (by simp; omega), List.getElem?_take_of_lt hj]
    · simp only [get]
      rw [List.getElem?_append_right (by simp)]
      simp [Nat.min_eq_left h']
    · intro j hj
      simp only [get]
      rw [List.getElem?_append_right (by simp; omega)]
      simp only [List.length_take, Nat.min_eq_left h']
      rw [show j + 1 - i = (j - i) + 1 by omega, List.getElem?_cons_succ, List.getElem?_drop]
      congr 1
      omega
  · intro h
    rw [insert, if_pos h]

example : (⟨[1, 2, 3]⟩ : PointCloud Nat).insert 3 9 = (⟨[1, 2, 3, 9]⟩, .ok ()) := by decide +kernel

end PointCloud

/-! ## C52 -/

/-- **C52** (partial: index below `len`; missing is `index == len`, see `c52_violated`) the containers agree:
`insert` of a cloud and of a `Vec` / `VecDeque` give the same content, both succeed. A cloud also appends
for `index == len`, and beyond that every container refuses and stays unchanged. -/
theorem c52_insert_partial {P : Type} (l : List P) (i : Nat) (p : P) :
    (i < l.length → ∃ l', vecInsert l i p = (l', .ok ()) ∧
      (⟨l⟩ : PointCloud P).insert i p = (⟨l'⟩, .ok ()) ∧ l' = l.insertIdx i p) ∧
    ((⟨l⟩ : PointCloud P).insert l.length p = (⟨l ++ [p]⟩, .ok ())) ∧
    (l.length < i → (∃ e, vecInsert l i p = (l, .error e)) ∧
      ∃ e, (⟨l⟩ : PointCloud P).insert i p = (⟨l⟩, .error e)) := by
  refine ⟨fun h => ?_, ?_, fun h => ?_⟩
  · refine ⟨l.take i ++ p :: l.drop i, ?_, ?_, (PointCloud.insertIdx_eq l i p (by omega)).symm⟩
    · rw [vecInsert, if_neg (by omega)]
    · rw [PointCloud.insert, PointCloud.len, if_neg (by simp only; omega)]
  · rw [PointCloud.insert, PointCloud.len, if_neg (by simp only; omega)]
    simp
  · constructor
    · exact ⟨_, by rw [vecInsert, if_pos (by omega)]⟩
    · exact ⟨_, by rw [PointCloud.insert, PointCloud.len, if_pos (by simp only; omega)]⟩

/-- **C52 violated** inserting at `index == len` appends to a cloud, but is refused by every `Vec` and
`VecDeque` (in particular nothing can be inserted into an empty one). -/
theorem c52_violated {P : Type} (l : List P) (p : P) :
    vecInsert l l.length p = (l, .error .IndexOutOfBounds) ∧
    (⟨l⟩ : PointCloud P).insert l.length p = (⟨l ++ [p]⟩, .ok ()) := by
  refine ⟨by rw [vecInsert, if_pos (by omega)], (c52_insert_partial l 0 p).2.1⟩

example : vecInsert ([] : List Nat) 0 7 = ([], .error .IndexOutOfBounds) := by decide +kernel

/-! ## C53 -/

section
variable {α : Type} [Scalar α] [LawfulScalar α]

theorem partialCmp_ok {a b : α} (ha : ok a) (hb : ok b) :
    ∃ o, partialCmp a b = some o ∧ (o ≠ .gt ↔ key a ≤ key b) := by
  unfold partialCmp
  rcases lt_trichotomy (key a) (key b) with h | h | h
  · exact ⟨.lt, by rw [if_pos ((lt_of_ok ha hb).2 h)], by simp [h.le]⟩
  · refine ⟨.eq, ?_, by simp [h]⟩
    rw [if_neg, if_pos ((eq_of_ok ha hb).2 h)]
    rw [lt_of_ok ha hb]
    exact h.not_lt
  · refine ⟨.gt, ?_, by simp [h]⟩
    rw [if_neg, if_neg, if_pos ((lt_of_ok hb ha).2 h)]
    · rw [eq_of_ok ha hb]
      exact h.ne'
    · rw [lt_of_ok ha hb]
      exact h.not_gt

theorem firstCmp_ok {a b : α} (ha : ok a) (hb : ok b) (l : List (Option Ordering)) :
    (firstCmp (partialCmp a b :: l) != .gt) = true ↔ key a ≤ key b := by
  obtain ⟨o, h, ho⟩ := partialCmp_ok ha hb
  rw [h, firstCmp, bne_iff_ne, ho]

theorem sort_spec {P : Type} (c : P → α) (l : P → P → List (Option Ordering)) (pts : List P) :
    let r := stableSort (fun a b => firstCmp (partialCmp (c a) (c b) :: l a b) != .gt) pts
    r.Perm pts ∧ ((∀ p ∈ pts, ok (c p)) → r.Pairwise fun a b => (c a <=. c b) = true) ∧
      ∀ v, r.filter (fun p => c p ==. v) = pts.filter (fun p => c p ==. v) := by
  intro r
  refine ⟨stableSort_perm _, fun h => ?_, fun v => ?_⟩
  · have := stableSort_sorted_on (S := fun p => ok (c p))
      (le := fun a b => firstCmp (partialCmp (c a) (c b) :: l a b) != .gt) ?_ ?_ pts h
    · refine List.Pairwise.imp_of_mem ?_ this
      intro a b ha hb hab
      have oa := h a ((mem_stableSort pts).1 ha)
      have ob := h b ((mem_stableSort pts).1 hb)
      rw [le_of_ok oa ob]
      exact (firstCmp_ok oa ob _).1 hab
    · intro a b d oa ob od h1 h2
      rw [firstCmp_ok oa od]
      rw [firstCmp_ok oa ob] at h1
      rw [firstCmp_ok ob od] at h2
      exact h1.trans h2
    · intro a b oa ob
      rw [firstCmp_ok oa ob, firstCmp_ok ob oa]
      exact le_total _ _
  · apply stableSort_filter
    intro a x ha hx
    rw [eq_iff] at ha hx
    rw [firstCmp_ok ha.1 hx.1, ha.2.2, hx.2.2]

/-- **C53** `sort_dim` of a 2D cloud (`sort_x`, `sort_y`): the result is a permutation of the points, ordered by
the coordinate if that coordinate is never NaN, and points with equal coordinate keep their order. Another
dimension is refused and nothing changes. Holds for binary64. -/
theorem c53_sort_2d (pc : PointCloud (Point2D α)) :
    (∀ d : Fin 2, ∃ r, PointCloud2D.sortDim pc d = (⟨r⟩, .ok ()) ∧ r.Perm pc.data ∧
      ((∀ p ∈ pc.data, ok (at2 p d)) → r.Pairwise fun a b => (at2 a d <=. at2 b d) = true) ∧
      ∀ v, r.filter (fun p => at2 p d ==. v) = pc.data.filter (fun p => at2 p d ==. v)) ∧
    ∀ d ≥ 2, PointCloud2D.sortDim pc d = (pc, .error .IncorrectDimension) := by
  refine ⟨Fin.forall_fin_two.2 ⟨⟨_, rfl, ?_⟩, ⟨_, rfl, ?_⟩⟩, fun d hd => ?_⟩
  · exact sort_spec (fun p : Point2D α => p.x) (fun a b => [partialCmp a.y b.y]) pc.data
  · exact sort_spec (fun p : Point2D α => p.y) (fun a b => [partialCmp a.x b.x]) pc.data
  · match d, hd with
    | d + 2, _ => rfl

/-- **C53** `sort_dim` of a 3D cloud (`sort_x`, `sort_y`, `sort_z`), see `c53_sort_2d`. -/
theorem c53_sort_3d (pc : PointCloud (Point3D α)) :
    (∀ d : Fin 3, ∃ r, PointCloud3D.sortDim pc d = (⟨r⟩, .ok ()) ∧ r.Perm pc.data ∧
      ((∀ p ∈ pc.data, ok (at3 p d)) → r.Pairwise fun a b => (at3 a d <=. at3 b d) = true) ∧
      ∀ v, r.filter (fun p => at3 p d ==. v) = pc.data.filter (fun p => at3 p d ==. v)) ∧
    ∀ d ≥ 3, PointCloud3D.sortDim pc d = (pc, .error .IncorrectDimension) := by
  refine ⟨forall_fin3.2 ⟨⟨_, rfl, ?_⟩, ⟨_, rfl, ?_⟩, ⟨_, rfl, ?_⟩⟩, fun d hd => ?_⟩
  · exact sort_spec (fun p : Point3D α => p.x) (fun a b => [partialCmp a.y b.y, partialCmp a.z b.z]) pc.data
  · exact sort_spec (fun p : Point3D α => p.y) (fun a b => [partialCmp a.z b.z, partialCmp a.x b.x]) pc.data
  · exact sort_spec (fun p : Point3D α => p.z) (fun a b => [partialCmp a.x b.x, partialCmp a.y b.y]) pc.data
  · match d, hd with
    | d + 3, _ => rfl

end

example : PointCloud2D.sortDim (⟨[⟨.ofRat 2, .ofRat 0⟩, ⟨.ofRat 1, .ofRat 9⟩, ⟨.ofRat 1, .ofRat 3⟩]⟩ :
    PointCloud (Point2D F64)) 0 =
    (⟨[⟨.ofRat 1, .ofRat 9⟩, ⟨.ofRat 1, .ofRat 3⟩, ⟨.ofRat 2, .ofRat 0⟩]⟩, .ok ()) := by decide +kernel

/-! ## C55 -/

namespace Polygon
variable {P : Type}

/-- **C55** segment `i` goes from vertex `i` to its successor on the cycle of all vertices; there are exactly as
many segments as vertices. -/
theorem c55_segment_ids (p : Polygon P) (i : Nat) :
    p.numSegments = p.pc.data.length ∧ p.numVertices = p.pc.data.length ∧
    (i < p.pc.data.length → p.segmentVertexIds i = some (i, (i + 1) % p.pc.data.length)) ∧
    (p.pc.data.length ≤ i → p.segmentVertexIds i = none) := by
  refine ⟨rfl, rfl, fun h => ?_, fun h => ?_⟩
  · simp only [segmentVertexIds, PointCloud.len]
    rw [if_neg (by omega)]
    by_cases e : i = p.pc.data.length - 1
    · rw [if_pos (by simpa using e)]
      have : i + 1 = p.pc.data.length := by omega
      rw [this, Nat.mod_self]
    · rw [if_neg (by simpa using e), Nat.mod_eq_of_lt (by omega)]
  · rw [segmentVertexIds, if_pos (by simpa [PointCloud.len] using h)]

/-- **C55** one single cycle: following the segments from any vertex visits every vertex, every vertex is the
start of exactly one and the end of exactly one segment. -/
theorem c55_cycle (p : Polygon P) (v : Nat) (hv : v < p.pc.data.length) :
    (∃! s, ∃ e, p.segmentVertexIds s = some (v, e)) ∧ (∃! s, ∃ a, p.segmentVertexIds s = some (a, v)) ∧
    ∀ w < p.pc.data.length, ∃ path : List Nat, path.head? = some v ∧ path.getLast? = some w ∧
      path.IsChain fun a b => p.segmentVertexIds a = some (a, b) := by
  have key := fun i => c55_segment_ids p i
  generalize hn : p.pc.data.length = n at *
  have hseg : ∀ i a b, p.segmentVertexIds i = some (a, b) ↔ i < n ∧ a = i ∧ b = (i + 1) % n := by
    intro i a b
    by_cases h : i < n
    · rw [(key i).2.2.1 h]
      simp only [Option.some.injEq, Prod.mk.injEq]
      constructor
      · rintro ⟨rfl, rfl⟩
        exact ⟨h, rfl, rfl⟩
      · rintro ⟨-, rfl, rfl⟩
        exact ⟨rfl, rfl⟩
    · rw [(key i).2.2.2 (by omega)]
      simp [h]
  refine ⟨⟨v, ⟨(v + 1) % n, (hseg _ _ _).2 ⟨hv, rfl, rfl⟩⟩, ?_⟩, ?_, ?_⟩
  · rintro s ⟨e, he⟩
    exact ((hseg _ _ _).1 he).2.1.symm
  · refine ⟨(v + (n - 1)) % n, ⟨_, (hseg _ _ _).2 ⟨Nat.mod_lt _ (by omega), rfl, ?_⟩⟩, ?_⟩
    · rw [Nat.mod_add_mod, show v + (n - 1) + 1 = v + n by omega, Nat.add_mod_right, Nat.mod_eq_of_lt hv]
    · rintro s ⟨a, ha⟩
      obtain ⟨hs, -, e⟩ := (hseg _ _ _).1 ha
      rw [e, Nat.mod_add_mod, show s + 1 + (n - 1) = s + n by omega, Nat.add_mod_right, Nat.mod_eq_of_lt hs]
  · intro w hw
    have main : ∀ k, ∃ path : List Nat, path.head? = some v ∧ path.getLast? = some ((v + k) % n) ∧
        path.IsChain fun a b => p.segmentVertexIds a = some (a, b) := by
      intro k
      induction k with
      | zero => exact ⟨[v], rfl, by simp [Nat.mod_eq_of_lt hv], by simp⟩
      | succ k ih =>
        obtain ⟨path, h1, h2, h3⟩ := ih
        refine ⟨path ++ [(v + (k + 1)) % n], ?_, by simp, ?_⟩
        · cases path with
          | nil => simp at h1
          | cons a l => simpa using h1
        · rw [List.isChain_append]
          refine ⟨h3, by simp, ?_⟩
          intro x hx y hy
          have ex : (v + k) % n = x := by
            rw [h2] at hx
            simpa using hx
          have ey : (v + (k + 1)) % n = y := by simpa using hy
          subst ex ey
          refine (hseg _ _ _).2 ⟨Nat.mod_lt _ (by omega), rfl, ?_⟩
          rw [Nat.mod_add_mod, Nat.add_assoc]
    obtain ⟨path, h1, h2, h3⟩ := main (w + n - v)
    refine ⟨path, h1, ?_, h3⟩
    rw [h2, show v + (w + n - v) = w + n by omega, Nat.add_mod_right, Nat.mod_eq_of_lt hw]

example : (⟨⟨[10, 20, 30]⟩⟩ : Polygon Nat).segmentVertexIds 2 = some (2, 0) := by decide +kernel

/-- **C55** the vertices of a segment are the vertices with these ids; no panic. -/
theorem c55_segment_vertices (p : Polygon P) (i : Nat) :
    (∀ h : i < p.pc.data.length, p.segmentVertices i =
      some (some (p.pc.data[i], p.pc.data[(i + 1) % p.pc.data.length]'(Nat.mod_lt _ (by omega))))) ∧
    (p.pc.data.length ≤ i → p.segmentVertices i = some none) := by
  obtain ⟨-, -, h1, h2⟩ := c55_segment_ids p i
  refine ⟨fun h => ?_, fun h => ?_⟩
  · have hm : (i + 1) % p.pc.data.length < p.pc.data.length := Nat.mod_lt _ (by omega)
    simp only [segmentVertices, h1 h, PointCloud.index, List.getElem?_eq_getElem h,
      List.getElem?_eq_getElem hm, Option.bind_eq_bind, Option.bind_some]
  · simp only [segmentVertices, h2 h]

/-- **C55** editing: `add_vertex` appends and returns the id of the new vertex, `change_vertex` writes one
vertex or refuses an unknown id and changes nothing. -/
theorem c55_edit (p : Polygon P) (v : P) (i : Nat) :
    (p.addVertex v).1.pc.data = p.pc.data ++ [v] ∧ (p.addVertex v).1.vertex (p.addVertex v).2 = some v ∧
    (i < p.pc.data.length → ∃ q, p.changeVertex i v = some (q, .ok ()) ∧ q.pc.data = p.pc.data.set i v) ∧
    (p.pc.data.length ≤ i → p.changeVertex i v = some (p, .error .IncorrectVertexID)) := by
  refine ⟨rfl, ?_, fun h => ?_, fun h => ?_⟩
  · simp [addVertex, vertex, PointCloud.get, PointCloud.push, PointCloud.len]
  · refine ⟨⟨⟨p.pc.data.set i v⟩⟩, ?_, rfl⟩
    rw [changeVertex, PointCloud.len, if_neg (by omega)]
    simp [PointCloud.set, vecSet, h]
  · rw [changeVertex, PointCloud.len, if_pos h]

end Polygon

/-- euclidean length of the segment between two 2D points -/
noncomputable def Spec.segLen2 (a b : Point2D ℝ) : ℝ := Real.sqrt (Spec.sqrDist (at2 a) (at2 b))
/-- euclidean length of the segment between two 3D points -/
noncomputable def Spec.segLen3 (a b : Point3D ℝ) : ℝ := Real.sqrt (Spec.sqrDist (at3 a) (at3 b))

theorem Point2D.dist_segLen (a b : Point2D ℝ) : a.dist b = segLen2 b a := by
  simp only [Point2D.dist, Point2D.sqrDist, segLen2, Spec.sqrDist, Scalar.sq, Fin.sum_univ_two, at2_zero,
    at2_one, Real.scalar_sqrt]
  congr 1
  ring

theorem Point3D.dist_segLen (a b : Point3D ℝ) : a.dist b = segLen3 b a := by
  simp only [Point3D.dist, Point3D.sqrDist, segLen3, Spec.sqrDist, Scalar.sq, Fin.sum_univ_three, at3_zero,
    at3_one, at3_two, Real.scalar_sqrt]
  congr 1
  ring

/-- sum over consecutive pairs -/
def Spec.pairSum {P : Type} (f : P → P → ℝ) : List P → ℝ
  | a :: b :: l => f a b + Spec.pairSum f (b :: l)
  | _ => 0

theorem lengthLoop_2d (l : List (Point2D ℝ)) (acc : ℝ) :
    PointCloud2D.lengthLoop acc l = acc + pairSum segLen2 l := by
  induction l generalizing acc with
  | nil => simp [PointCloud2D.lengthLoop, pairSum]
  | cons a l ih =>
    cases l with
    | nil => simp [PointCloud2D.lengthLoop, pairSum]
    | cons b l =>
      rw [PointCloud2D.lengthLoop, ih, pairSum, Point2D.dist_segLen]
      ring

theorem lengthLoop_3d (l : List (Point3D ℝ)) (acc : ℝ) :
    PointCloud3D.lengthLoop acc l = acc + pairSum segLen3 l := by
  induction l generalizing acc with
  | nil => simp [PointCloud3D.lengthLoop, pairSum]
  | cons a l ih =>
    cases l with
    | nil => simp [PointCloud3D.lengthLoop, pairSum]
    | cons b l =>
      rw [PointCloud3D.lengthLoop, ih, pairSum, Point3D.dist_segLen]
      ring

theorem pairSum_sum {P : Type} (f : P → P → ℝ) (l : List P) :
    pairSum f l = ∑ i : Fin (l.length - 1), f (l[i.1]'(by omega)) (l[i.1 + 1]'(by omega)) := by
  induction l with
  | nil => simp [pairSum]
  | cons a l ih =>
    cases l with
    | nil => simp [pairSum]
    | cons b l =>
      rw [pairSum, ih]
      exact (Fin.sum_univ_succ (n := l.length) (fun i => f ((a :: b :: l)[i.1]'(by simp only [List.length_cons]; omega))
        ((a :: b :: l)[i.1 + 1]'(by simp only [List.length_cons]; omega)))).symm

theorem cloud_length_2d (l : List (Point2D ℝ)) : PointCloud2D.length ⟨l⟩ = pairSum segLen2 l := by
  rw [PointCloud2D.length, PointCloud.len]
  match l with
  | [] => simp [pairSum]
  | [a] => simp [pairSum]
  | a :: b :: l =>
    rw [if_neg (by simp), lengthLoop_2d]
    simp

theorem cloud_length_3d (l : List (Point3D ℝ)) : PointCloud3D.length ⟨l⟩ = pairSum segLen3 l := by
  rw [PointCloud3D.length, PointCloud.len]
  match l with
  | [] => simp [pairSum]
  | [a] => simp [pairSum]
  | a :: b :: l =>
    rw [if_neg (by simp), lengthLoop_3d]
    simp

/-- closing the path adds the segment from the last to the first point -/
theorem cycle_sum {P : Type} (f : P → P → ℝ) (l : List P) (h : 0 < l.length) :
    pairSum f l + f (l[l.length - 1]) l[0] =
      ∑ i : Fin l.length, f l[i.1] (l[(i.1 + 1) % l.length]'(Nat.mod_lt _ h)) := by
  rw [pairSum_sum]
  obtain ⟨n, hn⟩ : ∃ n, l.length = n + 1 := ⟨l.length - 1, by omega⟩
  have e : ∀ m (hm : l.length = m) (hm0 : 0 < m),
      (∑ i : Fin l.length, f l[i.1] (l[(i.1 + 1) % l.length]'(Nat.mod_lt _ h))) =
      ∑ i : Fin m, f (l[i.1]'(by omega)) (l[(i.1 + 1) % m]'(by rw [hm]; exact Nat.mod_lt _ hm0)) := by
    rintro m rfl hm0
    rfl
  have e' : ∀ m (hm : l.length - 1 = m),
      (∑ i : Fin (l.length - 1), f (l[i.1]'(by omega)) (l[i.1 + 1]'(by omega))) =
      ∑ i : Fin m, f (l[i.1]'(by omega)) (l[i.1 + 1]'(by omega)) := by
    rintro m rfl
    rfl
  rw [e (n + 1) hn (by omega), e' n (by omega), Fin.sum_univ_castSucc]
  congr 1
  · apply Finset.sum_congr rfl
    intro i _
    have : (i.1 + 1) % (n + 1) = i.1 + 1 := Nat.mod_eq_of_lt (by omega)
    simp only [Fin.val_castSucc, this]
  · simp [hn]

/-- **C55** the length of a cloud as path is the sum of the distances of consecutive points, the length of a
polygon is the sum of the lengths of all its segments, including the closing one; no panic
(exact arithmetic). -/
theorem c55_length_2d (l : List (Point2D ℝ)) :
    PointCloud2D.length ⟨l⟩ = ∑ i : Fin (l.length - 1), segLen2 (l[i.1]'(by omega)) (l[i.1 + 1]'(by omega)) ∧
    Polygon.length2D ⟨⟨l⟩⟩ = some (∑ i : Fin l.length,
      segLen2 l[i.1] (l[(i.1 + 1) % l.length]'(Nat.mod_lt _ (Nat.zero_lt_of_lt i.2)))) := by
  refine ⟨by rw [cloud_length_2d, pairSum_sum], ?_⟩
  simp only [Polygon.length2D, PointCloud.len]
  by_cases h : 0 < l.length
  · rw [if_pos h]
    have h1 : l.length - 1 < l.length := by omega
    simp only [PointCloud.index, List.getElem?_eq_getElem h, List.getElem?_eq_getElem h1,
      Option.bind_eq_bind, Option.bind_some]
    rw [cloud_length_2d, Point2D.dist_segLen, ← cycle_sum segLen2 l h]
    congr 2
    simp only [segLen2, Spec.sqrDist]
    congr 1
    apply Finset.sum_congr rfl
    intro d _
    ring
  · obtain rfl : l = [] := List.eq_nil_of_length_eq_zero (by omega)
    simp [PointCloud2D.length, PointCloud.len]

/-- **C55** the same in 3D, see `c55_length_2d`. -/
theorem c55_length_3d (l : List (Point3D ℝ)) :
    PointCloud3D.length ⟨l⟩ = ∑ i : Fin (l.length - 1), segLen3 (l[i.1]'(by omega)) (l[i.1 + 1]'(by omega)) ∧
    Polygon.length3D ⟨⟨l⟩⟩ = some (∑ i : Fin l.length,
      segLen3 l[i.1] (l[(i.1 + 1) % l.length]'(Nat.mod_lt _ (Nat.zero_lt_of_lt i.2)))) := by
  refine ⟨by rw [cloud_length_3d, pairSum_sum], ?_⟩
  simp only [Polygon.length3D, PointCloud.len]
  by_cases h : 0 < l.length
  · rw [if_pos h]
    have h1 : l.length - 1 < l.length := by omega
    simp only [PointCloud.index, List.getElem?_eq_getElem h, List.getElem?_eq_getElem h1,
      Option.bind_eq_bind, Option.bind_some]
    rw [cloud_length_3d, Point3D.dist_segLen, ← cycle_sum segLen3 l h]
    congr 2
    simp only [segLen3, Spec.sqrDist]
    congr 1
    apply Finset.sum_congr rfl
    intro d _
    ring
  · obtain rfl : l = [] := List.eq_nil_of_length_eq_zero (by omega)
    simp [PointCloud3D.length, PointCloud.len]

/-- the unit square has length 4 (binary64) -/
example : Polygon.length2D (⟨⟨[⟨.ofRat 0, .ofRat 0⟩, ⟨.ofRat 1, .ofRat 0⟩, ⟨.ofRat 1, .ofRat 1⟩,
    ⟨.ofRat 0, .ofRat 1⟩]⟩⟩ : Polygon (Point2D F64)) = some (.ofRat 4) := by decide +kernel

end R3D

import Verif.Props.ClosedVolume
import Verif.Props.MidFloat
/-!
C145, closed meshes: `subdivide::linear` (src/subdivide.rs:36-81) keeps a closed mesh closed.
-/
namespace R3D
open Scalar LawfulScalar Spec SubdivideSpec

/-- closed: whatever changes its sign with the direction of an edge cancels -/
theorem closed_iff_sums {P : Type} (m : TMesh P) :
    Closed m ↔ ∀ w : Nat × Nat → ℝ, (∀ e, w e.swap = -w e) → ((directedEdges m).map w).sum = 0 := by
  refine ⟨fun h w hw => sum_swap_zero w hw _ h, fun h => ?_⟩
  unfold Closed
  rw [List.perm_iff_count]
  intro x
  have cnt : ∀ (l : List (Nat × Nat)) (y : Nat × Nat), (l.map fun e => if e = y then (1 : ℝ) else 0).sum = (l.count y : ℝ) := by
    intro l y
    induction l with
    | nil => simp
    | cons e l ih =>
      rw [List.map_cons, List.sum_cons, ih, List.count_cons]
      by_cases he : e = y <;> simp [he, add_comm]
  have sw : (((directedEdges m).map Prod.swap).count x : ℝ) = (directedEdges m).count x.swap := by
    rw [← cnt, ← cnt, List.map_map]
    congr 1
    refine List.map_congr_left fun e _ => ?_
    have : e.swap = x ↔ e = x.swap := ⟨fun h => by rw [← h, Prod.swap_swap], fun h => by rw [h, Prod.swap_swap]⟩
    simp only [Function.comp_apply, this]
  have := h (fun e => (if e = x then 1 else 0) - if e = x.swap then 1 else 0) (fun e => by
    have h1 : e.swap = x ↔ e = x.swap := ⟨fun h => by rw [← h, Prod.swap_swap], fun h => by rw [h, Prod.swap_swap]⟩
    have h2 : e.swap = x.swap ↔ e = x := Prod.swap_inj
    simp only [h1, h2]
    ring)
  have split : ((directedEdges m).map fun e => (if e = x then (1 : ℝ) else 0) - if e = x.swap then 1 else 0).sum =
      ((directedEdges m).map fun e => if e = x then (1 : ℝ) else 0).sum - ((directedEdges m).map fun e => if e = x.swap then (1 : ℝ) else 0).sum := by
    generalize directedEdges m = l
    induction l with
    | nil => simp
    | cons e l ih => simp only [List.map_cons, List.sum_cons, ih]; ring
  rw [split, cnt, cnt] at this
  have e : (((directedEdges m).map Prod.swap).count x : ℝ) = (directedEdges m).count x := by rw [sw]; linarith
  exact_mod_cast e

/-- one step: the inner edges are walked in both directions, the outer ones are halves of the edges of the mesh -/
theorem closed_step {P : Type} (center : P → P → P) (hcomm : ∀ p q, center p q = center q p) (m r : TMesh P) (hwf : m.WellFormed)
    (hc : Closed m) (hr : TMesh.linear center m = some (.ok r)) : Closed r := by
  obtain ⟨r', mid, e, -, hf, -, hsym, -⟩ := c13_linear_subdivision center hcomm m hwf
  rw [hr] at e
  cases e
  rw [closed_iff_sums] at hc ⊢
  intro w hw
  have hw' : ∀ i j, w (i, j) = -w (j, i) := fun i j => hw (j, i)
  have key : ((directedEdges r).map w).sum =
      ((directedEdges m).map fun e => w (e.1, mid e.1 e.2) + w (mid e.1 e.2, e.2)).sum := by
    unfold directedEdges
    rw [hf]
    generalize m.faces = l
    induction l with
    | nil => rfl
    | cons f l ih =>
      simp only [List.flatMap_cons, List.flatMap_append, List.map_append, List.sum_append, ih]
      congr 1
      simp only [four, List.flatMap_cons, List.flatMap_nil, List.map_cons, List.map_nil, List.sum_cons, List.sum_nil, List.append_nil,
        List.cons_append, List.nil_append]
      have a1 := hw' (mid f.a f.b) (mid f.c f.a)
      have a2 := hw' (mid f.b f.c) (mid f.a f.b)
      have a3 := hw' (mid f.b f.c) (mid f.c f.a)
      linarith
  rw [key]
  refine hc _ fun e => ?_
  simp only [Prod.fst_swap, Prod.snd_swap]
  rw [hsym e.2 e.1, hw' e.2, hw' _ e.1]
  ring

/-- **C145** a closed mesh stays closed when it is subdivided, any number of times and with any midpoints that do not
depend on the direction of the edge (also those of doubles). -/
theorem c145_closed {P : Type} (center : P → P → P) (hcomm : ∀ p q, center p q = center q p) (k : Nat) (m : TMesh P) (hwf : m.WellFormed)
    (hc : Closed m) : ∃ r, subdivided center k m = some (.ok r) ∧ r.WellFormed ∧ Closed r := by
  induction k generalizing m with
  | zero => exact ⟨m, rfl, hwf, hc⟩
  | succ k ih =>
    obtain ⟨s, -, e, -, -, -, -, -, -, -, ws⟩ := c13_linear_subdivision center hcomm m hwf
    obtain ⟨r, er, h⟩ := ih s ws (closed_step center hcomm m s hwf hc e)
    exact ⟨r, by rw [subdivided, e]; exact er, h⟩

/-- a tetrahedron of doubles, two times -/
example : ∃ r, subdivided mid3 2 (⟨[⟨f 0, f 0, f 0⟩, ⟨f 1, f 0, f 0⟩, ⟨f 0, f 1, f 0⟩, ⟨f 0, f 0, f 1⟩],
    [⟨0, 2, 1⟩, ⟨0, 1, 3⟩, ⟨0, 3, 2⟩, ⟨1, 2, 3⟩]⟩ : TMesh (Point3D F64)) = some (.ok r) ∧ r.WellFormed ∧ Closed r := by
  refine c145_closed mid3 (fun p q => by simp only [mid3, F64.add_comm_any p.x, F64.add_comm_any p.y, F64.add_comm_any p.z]) 2 _ ?_ ?_
  · intro f hf
    simp only [List.mem_cons, List.not_mem_nil, or_false] at hf
    rcases hf with rfl | rfl | rfl | rfl <;> simp
  · simp only [Closed, directedEdges]
    decide

/-- without one of its faces it is not closed -/
example : ¬Closed (⟨[⟨0, 0, 0⟩, ⟨1, 0, 0⟩, ⟨0, 1, 0⟩, ⟨0, 0, 1⟩], [⟨0, 2, 1⟩, ⟨0, 1, 3⟩, ⟨0, 3, 2⟩]⟩ : TMesh (Point3D ℝ)) := by
  simp only [Closed, directedEdges]
  decide

end R3D

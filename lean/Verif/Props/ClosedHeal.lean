import Verif.Props.ClosedKept
import Verif.Props.ClusterVertices
/-!
C145, closed meshes: `heal_mesh` (src/heal_mesh.rs:32-68) and `cluster_vertices` (src/cluster_vertices.rs:33-97) keep a closed mesh closed.
-/
namespace R3D
open Scalar LawfulScalar Spec MeshAlgoSpec

/-- corners moved, faces of which corners met left out, no vertex twice: closed stays closed -/
theorem closed_corners {P : Type} [DecidableEq P] (m r : TMesh P) (g : Nat → Option P) (hwf : r.WellFormed) (hn : r.verts.Nodup)
    (h : cornerPositions r = (m.faces.map fun f => (g f.a, g f.b, g f.c)).filter pairwiseDistinct) (hc : Closed m) : Closed r := by
  rw [closed_iff_sums] at hc ⊢
  intro w hw
  let ix : Option P → Nat := fun o => o.elim 0 fun p => r.verts.idxOf p
  let W : Option P → Option P → ℝ := fun p q => w (ix p, ix q)
  have hW : ∀ p q, W p q = -W q p := fun p q => hw (ix q, ix p)
  have hWs : ∀ p, W p p = 0 := fun p => by have := hW p p; linarith
  let T : Option P × Option P × Option P → ℝ := fun t => W t.1 t.2.1 + (W t.2.1 t.2.2 + (W t.2.2 t.1 + 0))
  have hix : ∀ i, i < r.verts.length → ix r.verts[i]? = i := by
    intro i hi
    simp only [ix, List.getElem?_eq_getElem hi, Option.elim_some]
    exact hn.idxOf_getElem i hi
  have left : ((directedEdges r).map w).sum = ((cornerPositions r).map T).sum := by
    unfold directedEdges cornerPositions
    have : ∀ l : List Face3, (∀ f ∈ l, f ∈ r.faces) → ((l.flatMap fun f => [(f.a, f.b), (f.b, f.c), (f.c, f.a)]).map w).sum =
        ((l.map fun f => (r.verts[f.a]?, r.verts[f.b]?, r.verts[f.c]?)).map T).sum := by
      intro l
      induction l with
      | nil => intro _; rfl
      | cons f l ih =>
        intro hl
        obtain ⟨h1, h2, h3, -⟩ := hwf f (hl f (by simp))
        rw [List.flatMap_cons, List.map_append, List.sum_append, ih fun x hx => hl x (by simp [hx]), List.map_cons, List.map_cons,
          List.sum_cons]
        congr 1
        simp only [T, W, hix _ h1, hix _ h2, hix _ h3, List.map_cons, List.map_nil, List.sum_cons, List.sum_nil]
    exact this _ fun f h => h
  rw [left, h, sum_filter_zero T pairwiseDistinct _ ?_]
  · rw [← hc (fun e => W (g e.1) (g e.2)) fun e => hW _ _]
    unfold directedEdges
    generalize m.faces = l
    induction l with
    | nil => rfl
    | cons f l ih =>
      rw [List.flatMap_cons, List.map_append, List.sum_append, ← ih, List.map_cons, List.map_cons, List.sum_cons]
      rfl
  · rintro ⟨x, y, z⟩ - hx
    have : x = y ∨ x = z ∨ y = z := by
      by_contra hh
      push Not at hh
      simp [pairwiseDistinct, hh] at hx
    simp only [T]
    rcases this with rfl | rfl | rfl
    · rw [hWs, hW z]; ring
    · rw [hWs, hW y]; ring
    · rw [hWs, hW y]; ring

/-- **C145** healing a closed mesh gives a closed mesh. -/
theorem c145_closed_heal {P : Type} [DecidableEq P] (m : TMesh P) (hwf : m.WellFormed) (hc : Closed m) :
    ∃ r, m.healMesh = some (.ok r) ∧ r.WellFormed ∧ Closed r := by
  obtain ⟨r, e, hw, hn, h, -⟩ := c11_heal_mesh m hwf
  exact ⟨r, e, hw, closed_corners m r (fun i => m.verts[i]?) hw hn h hc⟩

/-- **C145** whenever clustering the vertices of a closed mesh succeeds, its result is closed (all numbers). -/
theorem c145_closed_cluster {α : Type} [Scalar α] [DecidableEq α] (m r : TMesh (Point3D α)) (hwf : m.WellFormed) (hc : Closed m) (size : α)
    (hr : clusterVertices m size = some (.ok r)) : Closed r := by
  have hr0 := hr
  unfold clusterVertices at hr
  cases hbb : BoundingBox3D.fromIterator m.verts with
  | error e => rw [hbb] at hr; cases hr
  | ok bb =>
    rw [hbb] at hr
    simp only [Option.bind_eq_bind] at hr
    cases hx : bb.sizeX with
    | none => rw [hx] at hr; cases hr
    | some sx =>
    cases hy : bb.sizeY with
    | none => rw [hx, hy] at hr; cases hr
    | some sy =>
    cases hz : bb.sizeZ with
    | none => rw [hx, hy, hz] at hr; cases hr
    | some sz =>
    have hres := c85_result m hwf size bb sx sy sz hbb hx hy hz
    by_cases hs : ∃ d ∈ [sx.val, sy.val, sz.val], toNatSat (2 ^ 64 - 1) (d / size) < 2
    · rw [hres.1 hs] at hr0; cases hr0
    · push Not at hs
      obtain ⟨r', ρ, e, -, hw, hn, -, h⟩ := hres.2 hs
      rw [hr0] at e
      cases e
      exact closed_corners m r (fun i => m.verts[ρ i]?) hw hn h hc

/-- an octahedron of which two corners are in the same place: the healed mesh is closed -/
example : ∃ r, (⟨[1, 2, 3, 4, 5, 1], [⟨0, 1, 2⟩, ⟨0, 2, 3⟩, ⟨0, 3, 4⟩, ⟨0, 4, 1⟩, ⟨5, 2, 1⟩, ⟨5, 3, 2⟩, ⟨5, 4, 3⟩, ⟨5, 1, 4⟩]⟩ : TMesh Nat).healMesh =
    some (.ok r) ∧ r.WellFormed ∧ Closed r := by
  refine c145_closed_heal _ ?_ ?_
  · intro f hf
    simp only [List.mem_cons, List.not_mem_nil, or_false] at hf
    rcases hf with rfl | rfl | rfl | rfl | rfl | rfl | rfl | rfl <;> simp
  · simp only [Closed, directedEdges]
    decide

/-- clustering a tetrahedron of doubles succeeds -/
example : ∃ r, clusterVertices (⟨[⟨f 0, f 0, f 0⟩, ⟨f 3, f 0, f 0⟩, ⟨f 0, f 3, f 0⟩, ⟨f 0, f 0, f 3⟩],
    [⟨0, 2, 1⟩, ⟨0, 1, 3⟩, ⟨0, 3, 2⟩, ⟨1, 2, 3⟩]⟩ : TMesh (Point3D F64)) (f 1) = some (.ok r) ∧ r.faces.length = 4 ∧ Closed r := by
  have ok : ∀ x : Panics (Res (TMesh (Point3D F64))), (match x with | some (.ok r) => r.faces.length == 4 | _ => false) = true →
      ∃ r, x = some (.ok r) ∧ r.faces.length = 4 := by
    rintro (_ | _ | r) h
    · cases h
    · cases h
    · exact ⟨r, rfl, by simpa using h⟩
  obtain ⟨r, e, hl⟩ := ok _ (by decide +kernel : (match clusterVertices (⟨[⟨f 0, f 0, f 0⟩, ⟨f 3, f 0, f 0⟩, ⟨f 0, f 3, f 0⟩, ⟨f 0, f 0, f 3⟩],
    [⟨0, 2, 1⟩, ⟨0, 1, 3⟩, ⟨0, 3, 2⟩, ⟨1, 2, 3⟩]⟩ : TMesh (Point3D F64)) (f 1) with | some (.ok r) => r.faces.length == 4 | _ => false) = true)
  refine ⟨r, e, hl, c145_closed_cluster _ r ?_ ?_ _ e⟩
  · intro f hf
    simp only [List.mem_cons, List.not_mem_nil, or_false] at hf
    rcases hf with rfl | rfl | rfl | rfl <;> simp
  · simp only [Closed, directedEdges]
    decide

end R3D

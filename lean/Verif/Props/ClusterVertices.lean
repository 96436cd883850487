import Verif.Model.Cluster
import Verif.Props.MeshAlgo
import Verif.Lemmas.Mesh
import Verif.Lemmas.BBCloud
import Verif.Props.AABBTree
import Mathlib.Algebra.Order.Floor.Ring
/-
C85: `cluster_vertices` snaps the vertices of a mesh to one representative per grid cell.
-/
namespace R3D
open Scalar MeshAlgoSpec Spec

/-! ### the map from cells to vertices -/

private theorem clusterMap_eq (cs : List (Nat × Nat × Nat)) : clusterMap cs = cs.zipIdx.reverse := by
  have : ∀ (l : List ((Nat × Nat × Nat) × Nat)) m, l.foldl (fun map c => c :: map) m = l.reverse ++ m := by
    intro l
    induction l with
    | nil => simp
    | cons a l ih => intro m; simp [ih]
  unfold clusterMap
  rw [this]
  simp

/-- the last vertex of a cell is its representative -/
theorem lookup_clusterMap (cs : List (Nat × Nat × Nat)) (c : Nat × Nat × Nat) (h : c ∈ cs) :
    ∃ i, (clusterMap cs).lookup c = some i ∧ cs[i]? = some c ∧ ∀ j, cs[j]? = some c → j ≤ i := by
  rw [clusterMap_eq]
  induction cs using List.reverseRecOn with
  | nil => simp at h
  | append_singleton cs d ih =>
    rw [List.zipIdx_append, List.reverse_append]
    simp only [List.zipIdx_cons, List.zipIdx_nil, List.reverse_cons, List.reverse_nil, List.nil_append,
      List.cons_append, List.lookup_cons, Nat.zero_add]
    by_cases hd : c = d
    · subst hd
      refine ⟨cs.length, by simp, by simp, ?_⟩
      intro j hj
      have := (List.getElem?_eq_some_iff.1 hj).1
      simp at this
      omega
    · have hb : (c == d) = false := by simpa using hd
      rw [hb]
      obtain ⟨i, h1, h2, h3⟩ := ih (by
        rcases List.mem_append.1 h with h | h
        · exact h
        · exact absurd (by simpa using h) hd)
      refine ⟨i, h1, ?_, ?_⟩
      · rw [List.getElem?_append_left (List.getElem?_eq_some_iff.1 h2).1, h2]
      · intro j hj
        rcases Nat.lt_or_ge j cs.length with hl | hl
        · rw [List.getElem?_append_left hl] at hj
          exact h3 j hj
        · rw [List.getElem?_append_right hl] at hj
          have hj' := (List.getElem?_eq_some_iff.1 hj)
          obtain ⟨hlt, he⟩ := hj'
          simp at he
          exact absurd he.symm hd

/-- `ρ` sends every index to the last index whose cell is the same -/
def IsLastOfCell {C : Type} (cs : List C) (ρ : Nat → Nat) : Prop :=
  ∀ v, v < cs.length → ρ v < cs.length ∧ cs[ρ v]? = cs[v]? ∧ ∀ w, cs[w]? = cs[v]? → w ≤ ρ v

variable {α : Type} [Scalar α]

theorem newVertex_some (m : TMesh (Point3D α)) (cs : List (Nat × Nat × Nat)) (hl : cs.length = m.verts.length) :
    ∃ ρ, IsLastOfCell cs ρ ∧ ∀ v, v < m.verts.length → newVertex m cs v = m.verts[ρ v]? := by
  have : ∀ v, ∃ i, v < cs.length → (i < cs.length ∧ cs[i]? = cs[v]? ∧ ∀ w, cs[w]? = cs[v]? → w ≤ i) ∧
      newVertex m cs v = m.verts[i]? := by
    intro v
    by_cases hv : v < cs.length
    · obtain ⟨i, h1, h2, h3⟩ := lookup_clusterMap cs cs[v] (List.getElem_mem hv)
      refine ⟨i, fun _ => ⟨⟨(List.getElem?_eq_some_iff.1 h2).1, by rw [h2, List.getElem?_eq_getElem hv], ?_⟩, ?_⟩⟩
      · intro w hw
        rw [List.getElem?_eq_getElem hv] at hw
        exact h3 w hw
      · unfold newVertex
        rw [List.getElem?_eq_getElem hv]
        simp only [Option.bind_eq_bind, Option.bind_some, h1, TMesh.vertex]
    · exact ⟨0, fun h => absurd h hv⟩
  choose ρ h using this
  exact ⟨ρ, fun v hv => (h v hv).1, fun v hv => (h v (by omega)).2⟩

/-! ### the loop over the faces -/

theorem cornerPositions_addFace {P : Type} (r : TMesh P) (hr : r.WellFormed) (a b c : P) :
    cornerPositions (r.addFace a b c).1 = cornerPositions r ++ [(some a, some b, some c)] := by
  unfold cornerPositions TMesh.addFace
  simp only [List.map_append, List.map_cons, List.map_nil]
  congr 1
  · apply List.map_congr_left
    intro f hf
    obtain ⟨h1, h2, h3, -⟩ := hr f hf
    rw [List.getElem?_append_left h1, List.getElem?_append_left h2, List.getElem?_append_left h3]
  · simp

theorem clusterFaces_some (m : TMesh (Point3D α)) (cs : List (Nat × Nat × Nat)) (ρ : Nat → Nat)
    (hl : cs.length = m.verts.length) (hρ : IsLastOfCell cs ρ)
    (hn : ∀ v, v < m.verts.length → newVertex m cs v = m.verts[ρ v]?) : ∀ (fs : List Face3) (r : TMesh (Point3D α)),
    (∀ f ∈ fs, f.a < m.verts.length ∧ f.b < m.verts.length ∧ f.c < m.verts.length) → r.WellFormed →
    ∃ r', clusterFaces m cs fs r = some r' ∧ r'.WellFormed ∧
      cornerPositions r' = cornerPositions r ++ fs.map fun f => (m.verts[ρ f.a]?, m.verts[ρ f.b]?, m.verts[ρ f.c]?) := by
  intro fs
  induction fs with
  | nil => intro r _ hr; exact ⟨r, rfl, hr, by simp⟩
  | cons f fs ih =>
    intro r hf hr
    obtain ⟨ha, hb, hc⟩ := hf f (by simp)
    have get : ∀ v, v < m.verts.length → ∃ p, newVertex m cs v = some p ∧ m.verts[ρ v]? = some p := by
      intro v hv
      have := (hρ v (by omega)).1
      exact ⟨m.verts[ρ v], by rw [hn v hv, List.getElem?_eq_getElem (by omega)], List.getElem?_eq_getElem (by omega)⟩
    obtain ⟨a, ha1, ha2⟩ := get _ ha
    obtain ⟨b, hb1, hb2⟩ := get _ hb
    obtain ⟨c, hc1, hc2⟩ := get _ hc
    obtain ⟨r', h1, h2, h3⟩ := ih (r.addFace a b c).1 (fun f h => hf f (by simp [h])) (TMesh.wf_addFace hr a b c)
    refine ⟨r', ?_, h2, ?_⟩
    · unfold clusterFaces
      rw [ha1, hb1, hc1]
      exact h1
    · rw [h3, cornerPositions_addFace r hr, List.map_cons, ha2, hb2, hc2, List.append_assoc]
      rfl

/-- The result of `cluster_vertices` on a well formed mesh whose bounding box exists, for every kind of numbers: the faces with
every corner replaced by the last vertex of its cell, without the faces of which two corners became equal; no vertex twice. -/
theorem c85_result [DecidableEq α] (m : TMesh (Point3D α)) (hwf : m.WellFormed) (size : α) (bb : BoundingBox3D α)
    (sx sy sz : Positive α) (hbb : BoundingBox3D.fromIterator m.verts = .ok bb) (hx : bb.sizeX = some sx)
    (hy : bb.sizeY = some sy) (hz : bb.sizeZ = some sz) :
    ((∃ d ∈ [sx.val, sy.val, sz.val], toNatSat (2 ^ 64 - 1) (d / size) < 2) →
      clusterVertices m size = some (.error .ClusterTooBig)) ∧
    ((∀ d ∈ [sx.val, sy.val, sz.val], 2 ≤ toNatSat (2 ^ 64 - 1) (d / size)) →
      ∃ r ρ, clusterVertices m size = some (.ok r) ∧ IsLastOfCell (m.verts.map (clusterOf bb.min size)) ρ ∧
        r.WellFormed ∧ r.verts.Nodup ∧ (∀ p ∈ r.verts, p ∈ m.verts) ∧
        cornerPositions r = (m.faces.map fun f => (m.verts[ρ f.a]?, m.verts[ρ f.b]?, m.verts[ρ f.c]?)).filter
          pairwiseDistinct) := by
  constructor
  · rintro h
    unfold clusterVertices
    rw [hbb]
    simp only [hx, hy, hz, Option.bind_eq_bind, Option.bind_some]
    rw [if_pos]
    simpa using h
  · intro h
    obtain ⟨ρ, h1, h2⟩ := newVertex_some m (m.verts.map (clusterOf bb.min size)) (by simp)
    obtain ⟨s, hs1, hs2, hs3⟩ := clusterFaces_some m _ ρ (by simp) h1 h2 m.faces TMesh.empty
      (fun f hf => ⟨(hwf f hf).1, (hwf f hf).2.1, (hwf f hf).2.2.1⟩) (by intro f hf; simp [TMesh.empty] at hf)
    obtain ⟨r, hr1, hr2, hr3, hr4, hr5⟩ := c11_heal_mesh s hs2
    refine ⟨r, ρ, ?_, h1, hr2, hr3, ?_, ?_⟩
    · unfold clusterVertices
      rw [hbb]
      simp only [hx, hy, hz, Option.bind_eq_bind, Option.bind_some]
      rw [if_neg, hs1]
      · exact hr1
      · simp only [List.mem_cons, List.not_mem_nil, or_false, forall_eq_or_imp, forall_eq] at h
        omega
    · intro p hp
      obtain ⟨f, hf, hp⟩ := (hr5 p).1 hp
      have hmem : (s.verts[f.a]?, s.verts[f.b]?, s.verts[f.c]?) ∈ cornerPositions s :=
        List.mem_map.2 ⟨f, hf, rfl⟩
      rw [hs3] at hmem
      simp only [cornerPositions, TMesh.empty, List.map_nil, List.nil_append, List.mem_map, Prod.mk.injEq] at hmem
      obtain ⟨g, -, e1, e2, e3⟩ := hmem
      rcases hp with hp | hp | hp
      · rw [← e1] at hp; exact List.mem_of_getElem? hp
      · rw [← e2] at hp; exact List.mem_of_getElem? hp
      · rw [← e3] at hp; exact List.mem_of_getElem? hp
    · rw [hr4, hs3]
      simp [cornerPositions, TMesh.empty]

/-! ### real numbers -/

/-- the cell of a point in the grid of cubes of width `size` with a corner at `lo` -/
noncomputable def gridCell (lo : Point3D ℝ) (size : ℝ) (p : Point3D ℝ) : ℤ × ℤ × ℤ :=
  (⌊(p.x - lo.x) / size⌋, ⌊(p.y - lo.y) / size⌋, ⌊(p.z - lo.z) / size⌋)

private theorem toNatSat_floor {x : ℝ} (h0 : 0 ≤ x) (h1 : x < 2 ^ 64) : toNatSat (2 ^ 64 - 1) x = ⌊x⌋₊ := by
  have : ⌊x⌋₊ < 2 ^ 64 := (Nat.floor_lt h0).2 (by exact_mod_cast h1)
  show min (2 ^ 64 - 1) ⌊x⌋₊ = _
  omega

/-- **C85**: over the real numbers, for every well formed mesh and positive cluster size.

* without a bounding box (which exists iff the vertices differ along all axes): `BoundingBoxMissing`
* with less than two clusters along some axis: `ClusterTooBig`
* otherwise there is a result without panic, whose faces are the faces of the mesh, in order, with every corner moved to the last
  vertex of its grid cell, without those of which corners met. Every corner moves less than `size` along every axis. Vertices are
  vertices of the input, none twice. -/
theorem c85_cluster_vertices [DecidableEq ℝ] (m : TMesh (Point3D ℝ)) (hwf : m.WellFormed) (size : ℝ) (hs : 0 < size) :
    ((¬ ∃ bb, IsBB3 m.verts bb) → clusterVertices m size = some (.error .BoundingBoxMissing)) ∧
    ∀ bb, IsBB3 m.verts bb →
      ((∃ d, at3 bb.max d - at3 bb.min d < 2 * size) → clusterVertices m size = some (.error .ClusterTooBig)) ∧
      ((∀ d, 2 * size ≤ at3 bb.max d - at3 bb.min d ∧ at3 bb.max d - at3 bb.min d < 2 ^ 64 * size) →
        ∃ r ρ, clusterVertices m size = some (.ok r) ∧ IsLastOfCell (m.verts.map (gridCell bb.min size)) ρ ∧
          r.WellFormed ∧ r.verts.Nodup ∧ (∀ p ∈ r.verts, p ∈ m.verts) ∧
          cornerPositions r = (m.faces.map fun f => (m.verts[ρ f.a]?, m.verts[ρ f.b]?, m.verts[ρ f.c]?)).filter
            pairwiseDistinct ∧
          ∀ v p q, m.verts[v]? = some p → m.verts[ρ v]? = some q → ∀ d, |at3 q d - at3 p d| < size) := by
  constructor
  · intro h
    unfold clusterVertices
    cases hb : BoundingBox3D.fromIterator m.verts with
    | error e => rfl
    | ok bb => exact absurd ⟨bb, (fromIterator_real_3d _ _).1 hb⟩ h
  · intro bb hbb
    have hok := (fromIterator_real_3d _ _).2 hbb
    have hlt := hbb.1
    rw [forall_fin3] at hlt
    obtain ⟨lx, ly, lz⟩ := hlt
    have hx : bb.sizeX = some ⟨bb.max.x - bb.min.x⟩ := size_real lx
    have hy : bb.sizeY = some ⟨bb.max.y - bb.min.y⟩ := size_real ly
    have hz : bb.sizeZ = some ⟨bb.max.z - bb.min.z⟩ := size_real lz
    obtain ⟨r1, r2⟩ := c85_result m hwf size bb _ _ _ hok hx hy hz
    have small : ∀ x : ℝ, 0 ≤ x → x < 2 * size → toNatSat (2 ^ 64 - 1) (x / size) < 2 := by
      intro x h0 h
      have h1 : x / size < 2 := by rw [div_lt_iff₀ hs]; exact h
      rw [toNatSat_floor (div_nonneg h0 hs.le) (h1.trans (by norm_num))]
      exact (Nat.floor_lt (div_nonneg h0 hs.le)).2 (by exact_mod_cast h1)
    have large : ∀ x : ℝ, 2 * size ≤ x → x < 2 ^ 64 * size → 2 ≤ toNatSat (2 ^ 64 - 1) (x / size) := by
      intro x h h1
      have h2 : 2 ≤ x / size := by rw [le_div_iff₀ hs]; exact h
      have h3 : x / size < 2 ^ 64 := by rw [div_lt_iff₀ hs]; exact h1
      rw [toNatSat_floor (by linarith) h3]
      exact Nat.le_floor (by exact_mod_cast h2)
    constructor
    · rintro ⟨d, hd⟩
      apply r1
      fin_cases d
      · exact ⟨_, by simp, small _ (sub_pos.2 lx).le hd⟩
      · exact ⟨_, by simp, small _ (sub_pos.2 ly).le hd⟩
      · exact ⟨_, by simp, small _ (sub_pos.2 lz).le hd⟩
    · intro h
      rw [forall_fin3] at h
      obtain ⟨r, ρ, h1, h2, h3, h4, h5, h6⟩ := r2 (by
        simp only [List.mem_cons, List.not_mem_nil, or_false, forall_eq_or_imp, forall_eq]
        exact ⟨large _ h.1.1 h.1.2, large _ h.2.1.1 h.2.1.2, large _ h.2.2.1 h.2.2.2⟩)
      -- the cells of the code are those of the grid
      have hcell : ∀ p ∈ m.verts, ∀ q ∈ m.verts, clusterOf bb.min size p = clusterOf bb.min size q ↔
          gridCell bb.min size p = gridCell bb.min size q := by
        intro p hp q hq
        have hp' := hbb.2.1 p hp
        have hq' := hbb.2.1 q hq
        rw [forall_fin3] at hp' hq'
        have key : ∀ lo hi a b : ℝ, hi - lo < 2 ^ 64 * size → lo ≤ a ∧ a ≤ hi → lo ≤ b ∧ b ≤ hi →
            (toNatSat (2 ^ 64 - 1) ((a - lo) / size) = toNatSat (2 ^ 64 - 1) ((b - lo) / size) ↔
              ⌊(a - lo) / size⌋ = ⌊(b - lo) / size⌋) := by
          intro lo hi a b hh ha hb
          have f1 : 0 ≤ (a - lo) / size := div_nonneg (by linarith) hs.le
          have f2 : 0 ≤ (b - lo) / size := div_nonneg (by linarith) hs.le
          rw [toNatSat_floor f1 (by rw [div_lt_iff₀ hs]; linarith), toNatSat_floor f2 (by rw [div_lt_iff₀ hs]; linarith),
            ← Int.natCast_floor_eq_floor f1, ← Int.natCast_floor_eq_floor f2]
          norm_cast
        have kx := key bb.min.x bb.max.x p.x q.x h.1.2 hp'.1 hq'.1
        have ky := key bb.min.y bb.max.y p.y q.y h.2.1.2 hp'.2.1 hq'.2.1
        have kz := key bb.min.z bb.max.z p.z q.z h.2.2.2 hp'.2.2 hq'.2.2
        unfold clusterOf gridCell
        simp only [Prod.mk.injEq]
        exact and_congr kx (and_congr ky kz)
      have hcell' : ∀ v w : Nat, v < m.verts.length → ((m.verts.map (clusterOf bb.min size))[w]? = (m.verts.map (clusterOf bb.min size))[v]? ↔
          (m.verts.map (gridCell bb.min size))[w]? = (m.verts.map (gridCell bb.min size))[v]?) := by
        intro v w hv
        simp only [List.getElem?_map, List.getElem?_eq_getElem hv, Option.map_some]
        cases hw : m.verts[w]? with
        | none => simp
        | some q =>
          simp only [Option.map_some, Option.some.injEq]
          exact hcell q (List.mem_of_getElem? hw) _ (List.getElem_mem hv)
      have h2' : IsLastOfCell (m.verts.map (gridCell bb.min size)) ρ := by
        intro v hv
        simp only [List.length_map] at hv
        obtain ⟨a1, a2, a3⟩ := h2 v (by simpa using hv)
        exact ⟨by simpa using a1, (hcell' v _ hv).1 a2, fun w hw => a3 w ((hcell' v w hv).2 hw)⟩
      refine ⟨r, ρ, h1, h2', h3, h4, h5, h6, ?_⟩
      intro v p q hp hq d
      have hv := (List.getElem?_eq_some_iff.1 hp).1
      have e := (h2' v (by simpa using hv)).2.1
      simp only [List.getElem?_map, hp, hq, Option.map_some, Option.some.injEq] at e
      have close : ∀ lo a b : ℝ, ⌊(a - lo) / size⌋ = ⌊(b - lo) / size⌋ → |a - b| < size := by
        intro lo a b hab
        have := Int.abs_sub_lt_one_of_floor_eq_floor hab
        rw [← sub_div, abs_div, abs_of_pos hs, div_lt_one hs] at this
        simpa using this
      unfold gridCell at e
      simp only [Prod.mk.injEq] at e
      fin_cases d
      · exact close _ _ _ e.1
      · exact close _ _ _ e.2.1
      · exact close _ _ _ e.2.2

/-- two triangles of which the first collapses -/
def clusterExample : TMesh (Point3D ℝ) :=
  ⟨[⟨0, 0, 0⟩, ⟨1, 0, 0⟩, ⟨4, 4, 4⟩, ⟨4, 0, 0⟩], [⟨0, 1, 2⟩, ⟨1, 2, 3⟩]⟩

example : clusterExample.WellFormed ∧ IsBB3 clusterExample.verts ⟨⟨0, 0, 0⟩, ⟨4, 4, 4⟩⟩ ∧
    ∀ d, 2 * (2 : ℝ) ≤ at3 (⟨4, 4, 4⟩ : Point3D ℝ) d - at3 (⟨0, 0, 0⟩ : Point3D ℝ) d ∧
      at3 (⟨4, 4, 4⟩ : Point3D ℝ) d - at3 (⟨0, 0, 0⟩ : Point3D ℝ) d < 2 ^ 64 * 2 := by
  refine ⟨?_, ⟨?_, ?_, ?_⟩, ?_⟩
  · intro f hf
    simp only [clusterExample, List.mem_cons, List.not_mem_nil, or_false] at hf
    rcases hf with rfl | rfl <;> simp [clusterExample]
  · rw [forall_fin3]; simp [at3]
  · intro p hp
    simp only [clusterExample, List.mem_cons, List.not_mem_nil, or_false] at hp
    rw [forall_fin3]
    rcases hp with rfl | rfl | rfl | rfl <;> simp [at3]
  · rw [forall_fin3]; simp [at3, clusterExample]
  · rw [forall_fin3]; simp [at3]; norm_num

/-- A cluster size of zero is not refused, and everything off the lower sides of the bounding box becomes one vertex: a triangle
with corners far apart disappears. -/
theorem c85_violated_zero : ∃ (m r : TMesh (Point3D F64)), m.WellFormed ∧ m.faces = [⟨1, 2, 3⟩] ∧ m.verts.Nodup ∧
    clusterVertices m (f 0) = some (.ok r) ∧ r.faces = [] :=
  ⟨⟨[⟨f 0, f 0, f 0⟩, ⟨f 1, f 2, f 3⟩, ⟨f 2, f 3, f 1⟩, ⟨f 3, f 1, f 2⟩], [⟨1, 2, 3⟩]⟩, ⟨[⟨f 3, f 1, f 2⟩], []⟩, by
    intro g hg
    simp only [List.mem_cons, List.not_mem_nil, or_false] at hg
    subst hg
    simp, rfl, by decide +kernel, by decide +kernel, rfl⟩

end R3D

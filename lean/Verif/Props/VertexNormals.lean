import Verif.Model.Cluster
import Verif.Props.RayTriangle
import Verif.Props.AABBTree
import Verif.Lemmas.MeshAlgo
/-
C86: `normals_of_mesh`.
-/
namespace R3D
open Scalar Spec

namespace Spec

/-- a vector scaled to length one; the zero vector becomes the z direction -/
noncomputable def unitOrZ [DecidableEq (Point3D ℝ)] (p : Point3D ℝ) : Point3D ℝ :=
  if p = ⟨0, 0, 0⟩ then ⟨0, 0, 1⟩ else ⟨p.x / len p, p.y / len p, p.z / len p⟩

/-- the sum of vectors -/
noncomputable def vsum (l : List (Point3D ℝ)) : Point3D ℝ := ⟨(l.map (·.x)).sum, (l.map (·.y)).sum, (l.map (·.z)).sum⟩

/-- position of a vertex -/
noncomputable def pos (m : TMesh (Point3D ℝ)) (v : Nat) : Point3D ℝ := m.verts.getD v ⟨0, 0, 0⟩

/-- `(b - a) × (c - a)` -/
noncomputable def areaVector (a b c : Point3D ℝ) : Point3D ℝ :=
  ⟨(b.y - a.y) * (c.z - a.z) - (b.z - a.z) * (c.y - a.y), (b.z - a.z) * (c.x - a.x) - (b.x - a.x) * (c.z - a.z),
   (b.x - a.x) * (c.y - a.y) - (b.y - a.y) * (c.x - a.x)⟩

/-- the unit normal of a face, by the right hand rule -/
noncomputable def unitNormal [DecidableEq (Point3D ℝ)] (m : TMesh (Point3D ℝ)) (f : Face3) : Point3D ℝ :=
  unitOrZ (areaVector (pos m f.a) (pos m f.b) (pos m f.c))

/-- the faces of a vertex -/
def facesAt (fs : List Face3) (v : Nat) : List Face3 := fs.filter fun f => decide (f.a = v ∨ f.b = v ∨ f.c = v)

theorem len_unitOrZ [DecidableEq (Point3D ℝ)] (p : Point3D ℝ) : len (unitOrZ p) = 1 := by
  unfold unitOrZ
  split
  · simp [len]
  · rename_i h
    have hl := len_pos h
    have e : p.x ^ 2 + p.y ^ 2 + p.z ^ 2 = len p ^ 2 := by
      unfold len; rw [Real.sq_sqrt (by positivity)]
    show Real.sqrt ((p.x / len p) ^ 2 + (p.y / len p) ^ 2 + (p.z / len p) ^ 2) = 1
    rw [div_pow, div_pow, div_pow, ← add_div, ← add_div, e, div_self (by positivity), Real.sqrt_one]

end Spec

variable [DecidableEq (Point3D ℝ)]

theorem newOrZ_unit (p : Point3D ℝ) : Norm3D.newOrZ p = some (unitOrZ p) := by
  rw [Norm3D.newOrZ_real]
  unfold unitOrZ
  by_cases h : p = ⟨0, 0, 0⟩
  · rw [if_pos h, if_pos h]
  · rw [if_neg h, if_neg h]
    congr 2 <;> ring

omit [DecidableEq (Point3D ℝ)] in
theorem addNormal_some (n : Point3D ℝ) (ns : List (Point3D ℝ)) (v : Nat) (h : v < ns.length) :
    ∃ ns', addNormal n ns v = some ns' ∧ ns'.length = ns.length ∧
      ∀ w : Nat, ns'[w]? = if v = w then ns[w]?.map (·.add n) else ns[w]? := by
  refine ⟨ns.set v ((ns[v]).add n), ?_, by simp, ?_⟩
  · unfold addNormal vecSet
    rw [List.getElem?_eq_getElem h]
    simp only [Option.bind_eq_bind, Option.bind_some]
    rw [if_pos h]
  · intro w
    rw [List.getElem?_set]
    by_cases hw : v = w
    · subst hw; simp [h]
    · simp [hw]

omit [DecidableEq (Point3D ℝ)] in
theorem vsum_append (l : List (Point3D ℝ)) (n : Point3D ℝ) : vsum (l ++ [n]) = (vsum l).add n := by
  simp [vsum, Point3D.add]

theorem faceNormalStep_some (m : TMesh (Point3D ℝ)) (hwf : m.WellFormed) (ns : List (Point3D ℝ)) (i : Nat)
    (hi : i < m.faces.length) (hl : ns.length = m.verts.length) :
    ∃ ns', faceNormalStep m ns i = some ns' ∧ ns'.length = m.verts.length ∧ ∀ v : Nat, ns'[v]? =
      if m.faces[i].a = v ∨ m.faces[i].b = v ∨ m.faces[i].c = v then ns[v]?.map (·.add (unitNormal m m.faces[i])) else ns[v]? := by
  obtain ⟨t, ht, h1, h2, h3⟩ := m.faceVertices_some hwf i hi
  obtain ⟨wa, wb, wc, nab, nac, nbc⟩ := hwf _ (List.getElem_mem hi)
  have hn : Norm3D.newOrZ ((conn t.1 t.2.1).cross (conn t.1 t.2.2)) = some (unitNormal m m.faces[i]) := by
    rw [newOrZ_unit]
    unfold unitNormal pos
    simp only [List.getD_eq_getElem?_getD, h1, h2, h3, Option.getD_some]
    rfl
  obtain ⟨n1, a1, b1, c1⟩ := addNormal_some (unitNormal m m.faces[i]) ns m.faces[i].a (by omega)
  obtain ⟨n2, a2, b2, c2⟩ := addNormal_some (unitNormal m m.faces[i]) n1 m.faces[i].b (by omega)
  obtain ⟨n3, a3, b3, c3⟩ := addNormal_some (unitNormal m m.faces[i]) n2 m.faces[i].c (by omega)
  refine ⟨n3, ?_, by omega, ?_⟩
  · unfold faceNormalStep
    rw [ht, show m.faceVertexIds i = some m.faces[i] from List.getElem?_eq_getElem hi]
    simp only [Option.bind_eq_bind, Option.bind_some, hn, a1, a2, a3]
  · intro v
    rw [c3, c2, c1]
    by_cases e1 : m.faces[i].a = v
    · have e2 : m.faces[i].b ≠ v := by omega
      have e3 : m.faces[i].c ≠ v := by omega
      simp [e1, e2, e3]
    · by_cases e2 : m.faces[i].b = v
      · have e3 : m.faces[i].c ≠ v := by omega
        simp [e1, e2, e3]
      · by_cases e3 : m.faces[i].c = v <;> simp [e1, e2, e3]

theorem foldNormals_some (m : TMesh (Point3D ℝ)) (hwf : m.WellFormed) : ∀ k, k ≤ m.faces.length →
    ∃ ns, (List.range k).foldlM (faceNormalStep m) (List.replicate m.numVertices Point3D.default) = some ns ∧
      ns.length = m.verts.length ∧ ∀ v, v < m.verts.length →
        ns[v]? = some (vsum ((facesAt (m.faces.take k) v).map (unitNormal m))) := by
  intro k
  induction k with
  | zero =>
    intro _
    refine ⟨_, rfl, by simp [TMesh.numVertices], ?_⟩
    intro v hv
    simp [facesAt, vsum, TMesh.numVertices, hv, Point3D.default, zero]
  | succ k ih =>
    intro hk
    obtain ⟨ns, h1, h2, h3⟩ := ih (by omega)
    obtain ⟨ns', h4, h5, h6⟩ := faceNormalStep_some m hwf ns k (by omega) h2
    refine ⟨ns', ?_, h5, ?_⟩
    · rw [List.range_succ, List.foldlM_append, h1]
      simp [h4]
    · intro v hv
      have ht : m.faces.take (k + 1) = m.faces.take k ++ [m.faces[k]] := by
        rw [List.take_append_getElem]
      rw [h6, h3 v hv, ht]
      unfold facesAt
      rw [List.filter_append]
      by_cases hc : m.faces[k].a = v ∨ m.faces[k].b = v ∨ m.faces[k].c = v
      · rw [if_pos hc, List.filter_cons_of_pos (by simpa using hc), List.filter_nil, List.map_append, List.map_cons,
          List.map_nil, vsum_append]
        rfl
      · rw [if_neg hc, List.filter_cons_of_neg (by simpa using hc), List.filter_nil, List.append_nil]

/-- **C86** (partial, see `c86_violated`): over the real numbers `normals_of_mesh` never panics on a well formed mesh and gives one
normal of length one per vertex: the direction of the sum of the unit normals of its faces, where a face without area counts as
facing z; z if that sum is zero. -/
theorem c86_normals_partial (m : TMesh (Point3D ℝ)) (hwf : m.WellFormed) : ∃ ns, normalsOfMesh m = some ns ∧
    ns.length = m.verts.length ∧ (∀ n ∈ ns, len n = 1) ∧
    ∀ v, v < m.verts.length → ns[v]? = some (unitOrZ (vsum ((facesAt m.faces v).map (unitNormal m)))) := by
  obtain ⟨ns, h1, h2, h3⟩ := foldNormals_some m hwf m.faces.length le_rfl
  rw [List.take_length] at h3
  refine ⟨ns.map unitOrZ, ?_, by simpa using h2, ?_, ?_⟩
  · unfold normalsOfMesh
    rw [show m.numFaces = m.faces.length from rfl, h1]
    simp only [Option.bind_eq_bind, Option.bind_some]
    have : ∀ l : List (Point3D ℝ), l.mapM Norm3D.newOrZ = some (l.map unitOrZ) := by
      intro l
      induction l with
      | nil => rfl
      | cons a l ih => simp [List.mapM_cons, newOrZ_unit, ih]
    exact this ns
  · intro n hn
    obtain ⟨p, -, rfl⟩ := List.mem_map.1 hn
    exact len_unitOrZ p
  · intro v hv
    rw [List.getElem?_map, h3 v hv]
    rfl

/-- a vertex without faces has the normal z -/
theorem c86_isolated (m : TMesh (Point3D ℝ)) (hwf : m.WellFormed) (v : Nat) (hv : v < m.verts.length)
    (h : ∀ f ∈ m.faces, f.a ≠ v ∧ f.b ≠ v ∧ f.c ≠ v) :
    ∃ ns, normalsOfMesh m = some ns ∧ ns[v]? = some ⟨0, 0, 1⟩ := by
  obtain ⟨ns, h1, -, -, h4⟩ := c86_normals_partial m hwf
  refine ⟨ns, h1, ?_⟩
  rw [h4 v hv]
  have : facesAt m.faces v = [] := by
    unfold facesAt
    rw [List.filter_eq_nil_iff]
    intro f hf
    have := h f hf
    simp [this]
  rw [this]
  simp [vsum, unitOrZ]

omit [DecidableEq (Point3D ℝ)] in
private theorem vsum_const (n : Point3D ℝ) : ∀ l : List (Point3D ℝ), (∀ x ∈ l, x = n) →
    vsum l = ⟨l.length * n.x, l.length * n.y, l.length * n.z⟩ := by
  intro l
  induction l with
  | nil => intro _; simp [vsum]
  | cons a l ih =>
    intro h
    have e := ih (fun x hx => h x (by simp [hx]))
    have ea := h a (by simp)
    subst ea
    unfold vsum at e ⊢
    simp only [Point3D.mk.injEq, List.map_cons, List.sum_cons, List.length_cons] at e ⊢
    rw [e.1, e.2.1, e.2.2]
    push_cast
    refine ⟨by ring, by ring, by ring⟩

/-- within a flat part of a mesh, every vertex has the normal of its faces -/
theorem c86_flat (m : TMesh (Point3D ℝ)) (hwf : m.WellFormed) (v : Nat) (hv : v < m.verts.length) (n : Point3D ℝ)
    (hne : ∃ f ∈ m.faces, f.a = v ∨ f.b = v ∨ f.c = v)
    (hflat : ∀ f ∈ m.faces, f.a = v ∨ f.b = v ∨ f.c = v → unitNormal m f = n) :
    ∃ ns, normalsOfMesh m = some ns ∧ ns[v]? = some n := by
  obtain ⟨ns, h1, -, -, h4⟩ := c86_normals_partial m hwf
  refine ⟨ns, h1, ?_⟩
  have hmem : ∀ f, f ∈ facesAt m.faces v ↔ f ∈ m.faces ∧ (f.a = v ∨ f.b = v ∨ f.c = v) := by
    intro f; simp [facesAt]
  rw [h4 v hv, vsum_const n _ (by
    intro x hx
    obtain ⟨f, hf, rfl⟩ := List.mem_map.1 hx
    obtain ⟨h5, h6⟩ := (hmem f).1 hf
    exact hflat f h5 h6)]
  obtain ⟨f, hf1, hf2⟩ := hne
  have hlen : 0 < ((facesAt m.faces v).map (unitNormal m)).length := by
    rw [List.length_map]
    exact List.length_pos_of_mem ((hmem f).2 ⟨hf1, hf2⟩)
  generalize ((facesAt m.faces v).map (unitNormal m)).length = k at hlen
  have hk : (0:ℝ) < k := by exact_mod_cast hlen
  have hn1 : len n = 1 := by rw [← hflat f hf1 hf2]; exact len_unitOrZ _
  have hlk : len ⟨k * n.x, k * n.y, k * n.z⟩ = k := by
    have : len ⟨k * n.x, k * n.y, k * n.z⟩ = k * len n := by
      unfold len
      show Real.sqrt ((k * n.x) ^ 2 + (k * n.y) ^ 2 + (k * n.z) ^ 2) = _
      rw [show ((k:ℝ) * n.x) ^ 2 + (k * n.y) ^ 2 + (k * n.z) ^ 2 = k ^ 2 * (n.x ^ 2 + n.y ^ 2 + n.z ^ 2) by ring,
        Real.sqrt_mul (by positivity), Real.sqrt_sq hk.le]
    rw [this, hn1, mul_one]
  unfold unitOrZ
  rw [if_neg]
  · simp only [hlk]
    rw [mul_div_cancel_left₀ _ hk.ne', mul_div_cancel_left₀ _ hk.ne', mul_div_cancel_left₀ _ hk.ne']
  · intro h0
    rw [h0] at hlk
    simp [len] at hlk
    exact hk.ne hlk

/-- a square, facing down -/
noncomputable def squareDown : TMesh (Point3D ℝ) :=
  ⟨[⟨0, 0, 0⟩, ⟨1, 0, 0⟩, ⟨1, 1, 0⟩, ⟨0, 1, 0⟩], [⟨0, 2, 1⟩, ⟨0, 3, 2⟩]⟩

example : squareDown.WellFormed ∧ (∃ f ∈ squareDown.faces, f.a = 2 ∨ f.b = 2 ∨ f.c = 2) ∧
    ∀ f ∈ squareDown.faces, f.a = 2 ∨ f.b = 2 ∨ f.c = 2 → unitNormal squareDown f = ⟨0, 0, -1⟩ := by
  refine ⟨?_, ?_, ?_⟩
  · intro f hf
    simp only [squareDown, List.mem_cons, List.not_mem_nil, or_false] at hf
    rcases hf with rfl | rfl <;> simp [squareDown]
  · simp [squareDown]
  · intro f hf _
    simp only [squareDown, List.mem_cons, List.not_mem_nil, or_false] at hf
    rcases hf with rfl | rfl <;> simp [squareDown, unitNormal, unitOrZ, areaVector, pos, len]

omit [DecidableEq (Point3D ℝ)] in
/-- **C86** violated: a face without area contributes the normal z. Here it turns the normals of a triangle that faces down. -/
theorem c86_violated : ∃ vs : List (Point3D F64),
    normalsOfMesh ⟨vs, [⟨0, 2, 1⟩]⟩ = some [⟨f 0, f 0, f (-1)⟩, ⟨f 0, f 0, f (-1)⟩, ⟨f 0, f 0, f (-1)⟩, ⟨f 0, f 0, f 1⟩] ∧
    normalsOfMesh ⟨vs, [⟨0, 2, 1⟩, ⟨0, 1, 3⟩]⟩ =
      some [⟨f 0, f 0, f 1⟩, ⟨f 0, f 0, f 1⟩, ⟨f 0, f 0, f (-1)⟩, ⟨f 0, f 0, f 1⟩] :=
  ⟨[⟨f 0, f 0, f 0⟩, ⟨f 1, f 0, f 0⟩, ⟨f 1, f 1, f 0⟩, ⟨f 2, f 0, f 0⟩], by decide +kernel, by decide +kernel⟩

omit [DecidableEq (Point3D ℝ)] in
/-- **C86** violated: finite coordinates may panic, because the cross product of large vectors is not a number -/
theorem c86_violated_panic : ∃ vs : List (Point3D F64), (∀ p ∈ vs, F64.IsFin p.x ∧ F64.IsFin p.y ∧ F64.IsFin p.z) ∧
    (⟨vs, [⟨0, 1, 2⟩]⟩ : TMesh (Point3D F64)).WellFormed ∧ normalsOfMesh ⟨vs, [⟨0, 1, 2⟩]⟩ = none := by
  refine ⟨[⟨f 0, f 0, f 0⟩, ⟨f (2 ^ 600), f (2 ^ 600), f 0⟩, ⟨f (2 ^ 600), f (2 * 2 ^ 600), f 0⟩], ?_, ?_, by decide +kernel⟩
  · intro p hp
    simp only [List.mem_cons, List.not_mem_nil, or_false] at hp
    rcases hp with rfl | rfl | rfl
    · exact ⟨⟨false, 0, by decide +kernel⟩, ⟨false, 0, by decide +kernel⟩, ⟨false, 0, by decide +kernel⟩⟩
    · exact ⟨⟨false, 2 ^ 600, by decide +kernel⟩, ⟨false, 2 ^ 600, by decide +kernel⟩, ⟨false, 0, by decide +kernel⟩⟩
    · exact ⟨⟨false, 2 ^ 600, by decide +kernel⟩, ⟨false, 2 ^ 601, by decide +kernel⟩, ⟨false, 0, by decide +kernel⟩⟩
  · intro g hg
    simp only [List.mem_cons, List.not_mem_nil, or_false] at hg
    subst hg
    simp

/-- `c86_isolated`: a mesh with a vertex of no face -/
example : let m : TMesh (Point3D ℝ) := ⟨[⟨0, 0, 1⟩, ⟨4, 0, 1⟩, ⟨0, 4, 1⟩, ⟨4, 4, 2⟩], [⟨0, 1, 2⟩]⟩
    m.WellFormed ∧ 3 < m.verts.length ∧ ∀ f ∈ m.faces, f.a ≠ 3 ∧ f.b ≠ 3 ∧ f.c ≠ 3 := by
  refine ⟨?_, by simp, by simp⟩
  simp [TMesh.WellFormed]

end R3D

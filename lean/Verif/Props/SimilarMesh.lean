import Verif.Props.SimilarGeo
import Verif.Model.Cluster
/-!
C117: results do not depend on the origin and the unit of the coordinates (exact arithmetic): meshes. Doubles: `c117_violated`.
-/
namespace R3D
open Scalar LawfulScalar Spec

/-- a mesh with its vertices in other coordinates -/
def Spec.simMesh (f : ℝ) (v : Point3D ℝ) (m : TMesh (Point3D ℝ)) : TMesh (Point3D ℝ) := ⟨m.verts.map (sim3 f v), m.faces⟩

namespace Sim
variable {f : ℝ} {v : Point3D ℝ} {P Q : Type}

/-- renaming the vertices -/
def ren (φ : P → Q) (m : TMesh P) : TMesh Q := ⟨m.verts.map φ, m.faces⟩

theorem simMesh_eq (m : TMesh (Point3D ℝ)) : simMesh f v m = ren (sim3 f v) m := rfl

theorem faceVertices (φ : P → Q) (m : TMesh P) (i : Nat) :
    (ren φ m).faceVertices i = (m.faceVertices i).map fun t => (φ t.1, φ t.2.1, φ t.2.2) := by
  simp only [TMesh.faceVertices, TMesh.faceVertexIds, TMesh.vertex, ren, List.getElem?_map]
  cases m.faces[i]? with
  | none => rfl
  | some s =>
    simp only [Option.bind_eq_bind, Option.bind_some]
    cases m.verts[s.a]? <;> try rfl
    cases m.verts[s.b]? <;> try rfl
    cases m.verts[s.c]? <;> rfl

theorem lookup_inj [DecidableEq P] [DecidableEq Q] (φ : P → Q) (hφ : Function.Injective φ) (map : List (P × Nat)) (x : P) :
    (map.map fun e => (φ e.1, e.2)).lookup (φ x) = map.lookup x := by
  induction map with
  | nil => rfl
  | cons e map ih =>
    obtain ⟨a, n⟩ := e
    simp only [List.map_cons, List.lookup_cons, ih]
    by_cases h : x = a
    · simp [h]
    · have : φ x ≠ φ a := fun e => h (hφ e)
      rw [beq_eq_false_iff_ne.2 h, beq_eq_false_iff_ne.2 this]

theorem pack_ren [DecidableEq P] [DecidableEq Q] (φ : P → Q) (hφ : Function.Injective φ) (xs : List P) :
    packDupesIndexed (xs.map φ) = ((packDupesIndexed xs).1.map φ, (packDupesIndexed xs).2) := by
  have : ∀ (xs : List P) (map : List (P × Nat)) packed ids,
      (xs.map φ).foldl packStep (map.map (fun e => (φ e.1, e.2)), packed.map φ, ids) =
        (((xs.foldl packStep (map, packed, ids)).1).map (fun e => (φ e.1, e.2)), (xs.foldl packStep (map, packed, ids)).2.1.map φ,
          (xs.foldl packStep (map, packed, ids)).2.2) := by
    intro xs
    induction xs with
    | nil => intro map packed ids; rfl
    | cons x xs ih =>
      intro map packed ids
      simp only [List.map_cons, List.foldl_cons]
      have hs : packStep (map.map (fun e => (φ e.1, e.2)), packed.map φ, ids) (φ x) =
          (((packStep (map, packed, ids) x).1).map (fun e => (φ e.1, e.2)), (packStep (map, packed, ids) x).2.1.map φ,
            (packStep (map, packed, ids) x).2.2) := by
        simp only [packStep, lookup_inj φ hφ]
        cases map.lookup x with
        | none => simp
        | some i => rfl
      rw [hs, ih]
  have h := this xs [] [] []
  simp only [List.map_nil] at h
  simp only [packDupesIndexed, h]

theorem addVertices (φ : P → Q) (xs : List P) (r : TMesh P) :
    (xs.map φ).foldl (fun r x => (r.addVertex x).1) (ren φ r) = ren φ (xs.foldl (fun r x => (r.addVertex x).1) r) := by
  induction xs generalizing r with
  | nil => rfl
  | cons x xs ih =>
    simp only [List.map_cons, List.foldl_cons]
    rw [← ih]
    congr 1
    simp [TMesh.addVertex, ren]

theorem tryAdd (φ : P → Q) (r : TMesh P) (a b c : Nat) :
    (ren φ r).tryAddConnection a b c = (ren φ (r.tryAddConnection a b c).1, (r.tryAddConnection a b c).2) := by
  simp only [TMesh.tryAddConnection, ren, List.length_map]
  split
  · rfl
  · split <;> rfl

theorem healLoop (φ : P → Q) (indices fs : List Nat) (r : TMesh P) :
    TMesh.healLoop indices fs (ren φ r) = (TMesh.healLoop indices fs r).map (Except.map (ren φ)) := by
  induction fs generalizing r with
  | nil => rfl
  | cons i fs ih =>
    simp only [TMesh.healLoop]
    cases indices[3 * i + 0]? <;> try rfl
    cases indices[3 * i + 1]? <;> try rfl
    cases indices[3 * i + 2]? <;> try rfl
    rename_i a b c
    simp only [Option.bind_eq_bind, Option.bind_some]
    split
    · exact ih r
    · rw [tryAdd]
      rcases r.tryAddConnection a b c with ⟨r', _ | _⟩
      · rfl
      · exact ih r'

theorem healMesh [DecidableEq P] [DecidableEq Q] (φ : P → Q) (hφ : Function.Injective φ) (m : TMesh P) :
    (ren φ m).healMesh = m.healMesh.map (Except.map (ren φ)) := by
  simp only [TMesh.healMesh, show (ren φ m).numFaces = m.numFaces from rfl]
  rw [show (ren φ m).faceVertices = fun i => (m.faceVertices i).map fun t => (φ t.1, φ t.2.1, φ t.2.2) from funext fun i => faceVertices φ m i,
    mapM_opt]
  cases (List.range m.numFaces).mapM m.faceVertices with
  | none => rfl
  | some ts =>
    simp only [Option.map_some, Option.bind_eq_bind, Option.bind_some]
    rw [show (ts.map fun t => (φ t.1, φ t.2.1, φ t.2.2)).flatMap (fun t => [t.1, t.2.1, t.2.2]) =
      (ts.flatMap fun t => [t.1, t.2.1, t.2.2]).map φ by
        induction ts with
        | nil => rfl
        | cons t ts ih => simp [ih], pack_ren φ hφ]
    have := addVertices φ (packDupesIndexed (ts.flatMap fun t => [t.1, t.2.1, t.2.2])).1 TMesh.empty
    rw [show ren φ (TMesh.empty : TMesh P) = TMesh.empty from rfl] at this
    simp only [this, healLoop]

theorem inj (hf : 0 < f) : Function.Injective (sim3 f v) := by
  intro p q h
  simp only [sim3, Point3D.mk.injEq, add_left_inj, mul_eq_mul_left_iff, hf.ne', or_false] at h
  obtain ⟨h1, h2, h3⟩ := h
  cases p; cases q
  simp_all

theorem edgeVertex (φ : P → Q) (cp : P → P → P) (cq : Q → Q → Q) (hc : ∀ a b, cq (φ a) (φ b) = φ (cp a b)) (r : TMesh P)
    (es : List ((Nat × Nat) × Nat)) (i j : Nat) (p q : P) :
    TMesh.edgeVertex cq (ren φ r, es) i j (φ p) (φ q) =
      ((ren φ (TMesh.edgeVertex cp (r, es) i j p q).1.1, (TMesh.edgeVertex cp (r, es) i j p q).1.2), (TMesh.edgeVertex cp (r, es) i j p q).2) := by
  simp only [TMesh.edgeVertex]
  cases es.lookup (min i j, max i j) with
  | some n => rfl
  | none => simp [TMesh.addVertex, ren, hc]

theorem linearLoop (φ : P → Q) (cp : P → P → P) (cq : Q → Q → Q) (hc : ∀ a b, cq (φ a) (φ b) = φ (cp a b)) (mi : TMesh P) (is : List Nat)
    (r : TMesh P) (es : List ((Nat × Nat) × Nat)) :
    TMesh.linearLoop cq (ren φ mi) is (ren φ r, es) = (TMesh.linearLoop cp mi is (r, es)).map (Except.map (ren φ)) := by
  induction is generalizing r es with
  | nil => rfl
  | cons i is ih =>
    simp only [TMesh.linearLoop, faceVertices, show (ren φ mi).faceVertexIds i = mi.faceVertexIds i from rfl]
    cases mi.faceVertexIds i <;> try rfl
    rename_i s
    cases mi.faceVertices i <;> try rfl
    rename_i t
    simp only [Option.map_some, Option.bind_eq_bind, Option.bind_some, edgeVertex φ cp cq hc]
    obtain ⟨⟨r, es⟩, ia⟩ := TMesh.edgeVertex cp (r, es) s.a s.b t.1 t.2.1
    simp only []
    obtain ⟨⟨r, es⟩, ib⟩ := TMesh.edgeVertex cp (r, es) s.b s.c t.2.1 t.2.2
    simp only []
    obtain ⟨⟨r, es⟩, ic⟩ := TMesh.edgeVertex cp (r, es) s.c s.a t.2.2 t.1
    simp only [tryAdd]
    rcases r.tryAddConnection s.a ia ic with ⟨r, _ | _⟩
    · rfl
    simp only [tryAdd]
    rcases r.tryAddConnection ia s.b ib with ⟨r, _ | _⟩
    · rfl
    simp only [tryAdd]
    rcases r.tryAddConnection ia ib ic with ⟨r, _ | _⟩
    · rfl
    simp only [tryAdd]
    rcases r.tryAddConnection ic ib s.c with ⟨r, _ | _⟩
    · rfl
    exact ih r es

theorem linear (φ : P → Q) (cp : P → P → P) (cq : Q → Q → Q) (hc : ∀ a b, cq (φ a) (φ b) = φ (cp a b)) (mi : TMesh P) :
    TMesh.linear cq (ren φ mi) = (TMesh.linear cp mi).map (Except.map (ren φ)) := by
  simp only [TMesh.linear, show (ren φ mi).numFaces = mi.numFaces from rfl,
    show (ren φ mi).numVertices = mi.numVertices from List.length_map ..]
  rw [show (ren φ mi).vertex = fun i => (mi.vertex i).map φ from funext fun i => List.getElem?_map .., mapM_opt]
  cases (List.range mi.numVertices).mapM mi.vertex with
  | none => rfl
  | some vs =>
    have := addVertices φ vs TMesh.empty
    rw [show ren φ (TMesh.empty : TMesh P) = TMesh.empty from rfl] at this
    simp only [Option.map_some, Option.bind_eq_bind, Option.bind_some, this, linearLoop φ cp cq hc]

theorem rayLoop (hf : 0 < f) (anchor dir : Point3D ℝ) (m : TMesh (Point3D ℝ)) (is : List Nat) (acc : List (Point3D ℝ)) :
    collectRayMeshLoop (sim3 f v anchor) dir (simMesh f v m) is (acc.map (sim3 f v)) =
      (collectRayMeshLoop anchor dir m is acc).map (List.map (sim3 f v)) := by
  induction is generalizing acc with
  | nil => rfl
  | cons i is ih =>
    simp only [collectRayMeshLoop, simMesh_eq, faceVertices]
    cases m.faceVertices i with
    | none => rfl
    | some t =>
      simp only [Option.map_some, Option.bind_eq_bind, Option.bind_some, rayTriangle hf]
      cases intersectionRayTriangle anchor dir t.1 t.2.1 t.2.2 with
      | none => rfl
      | some o =>
        cases o with
        | none => exact ih acc
        | some p =>
          have := ih (acc ++ [p])
          rw [List.map_append] at this
          exact this

theorem clusterOf (hf : 0 < f) (lo : Point3D ℝ) (s : ℝ) (p : Point3D ℝ) :
    R3D.clusterOf (sim3 f v lo) (f * s) (sim3 f v p) = R3D.clusterOf lo s p := by
  have h : ∀ x : ℝ, f * x / (f * s) = x / s := fun x => mul_div_mul_left x s hf.ne'
  simp only [R3D.clusterOf, conn, Point3D.smul, h]

theorem newVertex (m : TMesh (Point3D ℝ)) (cl : List (Nat × Nat × Nat)) (i : Nat) :
    R3D.newVertex (simMesh f v m) cl i = (R3D.newVertex m cl i).map (sim3 f v) := by
  simp only [R3D.newVertex, simMesh, TMesh.vertex, List.getElem?_map]
  cases cl[i]? <;> try rfl
  rename_i c
  simp only [Option.bind_eq_bind, Option.bind_some]
  cases (clusterMap cl).lookup c <;> rfl

theorem clusterFaces (m : TMesh (Point3D ℝ)) (cl : List (Nat × Nat × Nat)) (fs : List Face3) (r : TMesh (Point3D ℝ)) :
    R3D.clusterFaces (simMesh f v m) cl fs (simMesh f v r) = (R3D.clusterFaces m cl fs r).map (simMesh f v) := by
  induction fs generalizing r with
  | nil => rfl
  | cons s fs ih =>
    simp only [R3D.clusterFaces, newVertex]
    cases R3D.newVertex m cl s.a <;> try rfl
    cases R3D.newVertex m cl s.b <;> try rfl
    cases R3D.newVertex m cl s.c <;> try rfl
    simp only [Option.map_some, Option.bind_eq_bind, Option.bind_some]
    rw [← ih]
    congr 1
    simp [TMesh.addFace, simMesh]

theorem faceNormalStep (hf : 0 < f) (m : TMesh (Point3D ℝ)) : R3D.faceNormalStep (simMesh f v m) = R3D.faceNormalStep m := by
  funext ns i
  simp only [R3D.faceNormalStep, simMesh_eq, faceVertices, show (ren (sim3 f v) m).faceVertexIds i = m.faceVertexIds i from rfl]
  cases m.faceVertexIds i <;> try rfl
  cases m.faceVertices i <;> try rfl
  simp only [Option.map_some, Option.bind_eq_bind, Option.bind_some, conn, cross, newOrZ (mul_pos hf hf)]

end Sim

/-- **C117**, meshes: in other coordinates a ray hits a mesh in the same points, the normals at the vertices are the same, removing double
vertices and subdividing give the same mesh. -/
theorem c117_mesh [DecidableEq ℝ] (f : ℝ) (hf : 0 < f) (v : Point3D ℝ) (m : TMesh (Point3D ℝ)) :
    (∀ anchor dir found, collectIntersectionsRayMesh (sim3 f v anchor) dir (simMesh f v m) (found.map (sim3 f v)) =
      (collectIntersectionsRayMesh anchor dir m found).map (List.map (sim3 f v))) ∧
    normalsOfMesh (simMesh f v m) = normalsOfMesh m ∧
    (simMesh f v m).healMesh = m.healMesh.map (Except.map (simMesh f v)) ∧
    ∀ center : Point3D ℝ → Point3D ℝ → Point3D ℝ, (∀ p q, centerNd p q = some (.ok (center p q))) →
      TMesh.linear center (simMesh f v m) = (TMesh.linear center m).map (Except.map (simMesh f v)) := by
  refine ⟨?_, ?_, Sim.healMesh _ (Sim.inj hf) m, fun center hc => Sim.linear _ _ _ ?_ m⟩
  · intro anchor dir found
    exact Sim.rayLoop hf anchor dir m _ found
  · simp only [normalsOfMesh, Sim.faceNormalStep hf, show (simMesh f v m).numFaces = m.numFaces from rfl,
      show (simMesh f v m).numVertices = m.numVertices from List.length_map ..]
  · intro p q
    have h : ∀ p q : Point3D ℝ, center p q = ⟨1 / 2 * (p.x + q.x), 1 / 2 * (p.y + q.y), 1 / 2 * (p.z + q.z)⟩ := by
      intro p q
      have e : centerNd p q = some (.ok ⟨lit (1 / 2) * (p.x + q.x), lit (1 / 2) * (p.y + q.y), lit (1 / 2) * (p.z + q.z)⟩) := rfl
      rw [hc] at e
      have := Except.ok.inj (Option.some.inj e)
      simpa using this
    simp only [h, sim3]
    congr 1 <;> ring

example [DecidableEq ℝ] : normalsOfMesh ⟨[⟨5, 6, 7⟩, ⟨7, 6, 7⟩, ⟨5, 8, 7⟩], [⟨0, 1, 2⟩]⟩ =
    normalsOfMesh ⟨[⟨0, 0, 0⟩, ⟨1, 0, 0⟩, ⟨0, (1 : ℝ), 0⟩], [⟨0, 1, 2⟩]⟩ := by
  rw [← (c117_mesh 2 (by norm_num) ⟨5, 6, 7⟩ ⟨[⟨0, 0, 0⟩, ⟨1, 0, 0⟩, ⟨0, (1 : ℝ), 0⟩], [⟨0, 1, 2⟩]⟩).2.1]
  simp only [simMesh, List.map_cons, List.map_nil, sim3]
  norm_num

/-- **C117**, clustering: in other coordinates (with the size of the clusters in the other unit) clustering the vertices of a mesh has the
same result. -/
theorem c117_cluster [DecidableEq ℝ] (f : ℝ) (hf : 0 < f) (v : Point3D ℝ) (m : TMesh (Point3D ℝ)) (s : ℝ) :
    clusterVertices (simMesh f v m) (f * s) = (clusterVertices m s).map (Except.map (simMesh f v)) := by
  have h : ∀ x : ℝ, f * x / (f * s) = x / s := fun x => mul_div_mul_left x s hf.ne'
  simp only [clusterVertices, show (simMesh f v m).verts = m.verts.map (sim3 f v) from rfl, show (simMesh f v m).faces = m.faces from rfl,
    Sim.fromIterator3 hf]
  cases BoundingBox3D.fromIterator m.verts with
  | error e => rfl
  | ok b =>
    obtain ⟨-, -, -, hs⟩ := c117_box_3d f hf v
    simp only [Except.map, (hs b).2.2.1, (hs b).2.2.2.1, (hs b).2.2.2.2]
    cases b.sizeX <;> try rfl
    cases b.sizeY <;> try rfl
    cases b.sizeZ <;> try rfl
    simp only [Option.map_some, Option.bind_eq_bind, Option.bind_some, h]
    split
    · rfl
    · have e := Sim.clusterFaces (f := f) (v := v) m (m.verts.map (R3D.clusterOf b.min s)) m.faces TMesh.empty
      rw [show simMesh f v TMesh.empty = TMesh.empty from rfl] at e
      rw [List.map_map, show R3D.clusterOf (simBox3 f v b).min (f * s) ∘ sim3 f v = R3D.clusterOf b.min s from
        funext fun p => Sim.clusterOf hf b.min s p, e]
      cases R3D.clusterFaces m _ m.faces TMesh.empty with
      | none => rfl
      | some r => exact Sim.healMesh _ (Sim.inj hf) r

example [DecidableEq ℝ] : clusterVertices (simMesh 2 ⟨5, 6, 7⟩ ⟨[⟨0, 0, 0⟩, ⟨8, 0, 0⟩, ⟨0, 8, 8⟩], [⟨0, 1, 2⟩]⟩) (2 * 3) =
    (clusterVertices ⟨[⟨0, 0, 0⟩, ⟨8, 0, 0⟩, ⟨0, (8 : ℝ), 8⟩], [⟨0, 1, 2⟩]⟩ 3).map (Except.map (simMesh 2 ⟨5, 6, 7⟩)) :=
  c117_cluster 2 (by norm_num) ⟨5, 6, 7⟩ _ 3

/-- **C117 violated** with doubles: the point (1, 0) is not in the circle around the origin with radius 1/2, but after moving both by 2^53
along x, which is representable, it is: the moved coordinates are rounded. -/
theorem c117_violated : ∃ (c p v : Point2D F64) (r : F64), c = ⟨F64.ofRat 0, F64.ofRat 0⟩ ∧ p = ⟨F64.ofRat 1, F64.ofRat 0⟩ ∧
    v = ⟨F64.ofRat (2 ^ 53), F64.ofRat 0⟩ ∧ r = F64.ofRat (1 / 2) ∧
    filterCircle ⟨c, ⟨r⟩⟩ p = false ∧ filterCircle ⟨⟨c.x + v.x, c.y + v.y⟩, ⟨r⟩⟩ ⟨p.x + v.x, p.y + v.y⟩ = true :=
  ⟨_, _, _, _, rfl, rfl, rfl, rfl, by decide +kernel, by decide +kernel⟩

end R3D

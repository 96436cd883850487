import Verif.Props.StlFile
/-!
C66: unifying the vertices of .stl files.
-/
namespace R3D
open Spec

/-! ### specification -/

/-- two of the corners are the same -/
def Spec.degenerate (same : StlPoint → StlPoint → Bool) (t : StlFace StlPoint) : Bool := same t.a t.b || same t.a t.c || same t.b t.c

/-- the index `i` refers to the position `p`, if the vertices `vs` start at index `base` -/
def Spec.Refers (same : StlPoint → StlPoint → Bool) (base : Nat) (vs : List StlPoint) (i : Nat) (p : StlPoint) : Prop :=
  ∃ k v, i = base + k ∧ vs[k]? = some v ∧ (v = p ∨ same v p = true)

/-- the face is the triangle -/
def Spec.FaceIs (same : StlPoint → StlPoint → Bool) (base : Nat) (vs : List StlPoint) (t : StlFace StlPoint) (g : Face3) : Prop :=
  Refers same base vs g.a t.a ∧ Refers same base vs g.b t.b ∧ Refers same base vs g.c t.c

/-! ### the state of the loop -/

/-- the map refers to the new vertices `vs`, which are all different -/
structure UniqueInv (same : StlPoint → StlPoint → Bool) (m : TMesh StlPoint) (s : StlUnique) (vs : List StlPoint) : Prop where
  verts : s.mesh.verts = m.verts ++ vs
  map : s.map = vs.zipIdx m.verts.length
  diff : vs.Pairwise fun p q => same p q = false

theorem zipIdx_find {same : StlPoint → StlPoint → Bool} (p : StlPoint) (vs : List StlPoint) (base : Nat) :
    (∃ k v, vs[k]? = some v ∧ same v p = true ∧ (vs.zipIdx base).find? (fun e => same e.1 p) = some (v, base + k)) ∨
    ((∀ v ∈ vs, same v p = false) ∧ (vs.zipIdx base).find? (fun e => same e.1 p) = none) := by
  induction vs generalizing base with
  | nil => exact .inr ⟨by simp, rfl⟩
  | cons v vs ih =>
    by_cases h : same v p = true
    · exact .inl ⟨0, v, rfl, h, by simp [h]⟩
    · rw [List.zipIdx_cons, List.find?_cons_of_neg (by simpa using h)]
      rcases ih (base + 1) with ⟨k, w, h1, h2, h3⟩ | ⟨h1, h2⟩
      · exact .inl ⟨k + 1, w, by simpa using h1, h2, by rw [h3]; congr 2; omega⟩
      · exact .inr ⟨by simpa [h] using h1, h2⟩

/-- what happens to one corner -/
theorem stlVertexId_spec {same : StlPoint → StlPoint → Bool} {m : TMesh StlPoint} {s : StlUnique} {vs : List StlPoint}
    (h : UniqueInv same m s vs) (p : StlPoint) :
    ∃ s' k vs', stlVertexId same s p = (s', m.verts.length + k) ∧ UniqueInv same m s' vs' ∧ s'.mesh.faces = s.mesh.faces ∧
      s'.normals = s.normals ∧
      ((vs' = vs ∧ ∃ v, vs[k]? = some v ∧ same v p = true) ∨ (vs' = vs ++ [p] ∧ k = vs.length)) := by
  unfold stlVertexId
  rw [h.map]
  rcases zipIdx_find p vs m.verts.length with ⟨k, v, h1, h2, h3⟩ | ⟨h1, h2⟩
  · rw [h3]
    exact ⟨s, k, vs, rfl, h, rfl, rfl, .inl ⟨rfl, v, h1, h2⟩⟩
  · rw [h2]
    refine ⟨⟨(s.mesh.addVertex p).1, vs.zipIdx m.verts.length ++ [(p, s.mesh.numVertices)], s.normals⟩, vs.length, vs ++ [p], ?_, ⟨?_, ?_, ?_⟩, rfl, rfl, .inr ⟨rfl, rfl⟩⟩
    · show (_, s.mesh.verts.length) = _
      rw [h.verts, List.length_append]
    · simp [TMesh.addVertex, h.verts]
    · simp [TMesh.numVertices, h.verts, List.zipIdx_append]
    · rw [List.pairwise_append]
      exact ⟨h.diff, by simp, fun v hv q hq => by rw [List.mem_singleton] at hq; subst hq; exact h1 v hv⟩

theorem corner_of {same : StlPoint → StlPoint → Bool} {k : Nat} {vs vs' : List StlPoint} {p : StlPoint}
    (h : (vs' = vs ∧ ∃ v, vs[k]? = some v ∧ same v p = true) ∨ (vs' = vs ++ [p] ∧ k = vs.length)) :
    (∃ v, vs'[k]? = some v ∧ (v = p ∨ same v p = true)) ∧ ∃ ws, vs' = vs ++ ws ∧ ∀ v ∈ ws, v = p := by
  rcases h with ⟨rfl, v, h1, h2⟩ | ⟨rfl, rfl⟩
  · exact ⟨⟨v, h1, .inr h2⟩, [], by simp, by simp⟩
  · exact ⟨⟨p, by simp, .inl rfl⟩, [p], rfl, by simp⟩

theorem getElem?_grow {vs ws : List StlPoint} {k : Nat} {v : StlPoint} (h : vs[k]? = some v) : (vs ++ ws)[k]? = some v := by
  rw [List.getElem?_append_left (List.getElem?_eq_some_iff.1 h).1, h]

/-- two corners get the same index exactly if they are the same -/
theorem index_eq_iff {same : StlPoint → StlPoint → Bool} (hsymm : ∀ p q, same p q = true → same q p = true)
    (htrans : ∀ p q r, same p q = true → same q r = true → same p r = true) {p q : StlPoint} {i j : Nat} {vs vs' vs'' : List StlPoint}
    (hi : ∃ v, vs[i]? = some v ∧ (v = p ∨ same v p = true)) (hvs : vs <+: vs')
    (hj : (vs'' = vs' ∧ ∃ v, vs'[j]? = some v ∧ same v q = true) ∨ (vs'' = vs' ++ [q] ∧ j = vs'.length))
    (hdiff : vs''.Pairwise fun p q => same p q = false) : i = j ↔ same p q = true := by
  obtain ⟨v, hv, hvp⟩ := hi
  obtain ⟨ws, rfl⟩ := hvs
  have hlt : i < (vs ++ ws).length := (List.getElem?_eq_some_iff.1 (getElem?_grow (ws := ws) hv)).1
  constructor
  · rintro rfl
    rcases hj with ⟨-, v', hv', hs⟩ | ⟨-, rfl⟩
    · rw [getElem?_grow hv] at hv'
      cases hv'
      rcases hvp with rfl | hvp
      · exact hs
      · exact htrans _ _ _ (hsymm _ _ hvp) hs
    · omega
  · intro hs
    have hvq : same v q = true := by
      rcases hvp with rfl | hvp
      · exact hs
      · exact htrans _ _ _ hvp hs
    have hqq : same q q = true := htrans _ _ _ (hsymm _ _ hvq) hvq
    obtain ⟨⟨w, hw, hwq⟩, us, rfl, -⟩ := corner_of hj
    have hwq : same w q = true := by
      rcases hwq with rfl | h
      · exact hqq
      · exact h
    have hvi : ((vs ++ ws) ++ us)[i]? = some v := getElem?_grow (getElem?_grow hv)
    obtain ⟨h1, e1⟩ := List.getElem?_eq_some_iff.1 hvi
    obtain ⟨h2, e2⟩ := List.getElem?_eq_some_iff.1 hw
    have hvw := htrans _ _ _ hvq (hsymm _ _ hwq)
    rcases Nat.lt_trichotomy i j with h | h | h
    · have := List.pairwise_iff_getElem.1 hdiff i j h1 h2 h
      rw [e1, e2, hvw] at this
      cases this
    · exact h
    · have := List.pairwise_iff_getElem.1 hdiff j i h2 h1 h
      rw [e1, e2, hsymm _ _ hvw] at this
      cases this

theorem Refers.grow {same : StlPoint → StlPoint → Bool} {base : Nat} {vs ws : List StlPoint} {i : Nat} {p : StlPoint}
    (h : Refers same base vs i p) : Refers same base (vs ++ ws) i p := by
  obtain ⟨k, v, h1, h2, h3⟩ := h
  exact ⟨k, v, h1, getElem?_grow h2, h3⟩

/-- what happens to one triangle -/
theorem stlPushUnique_spec {same : StlPoint → StlPoint → Bool} (hsymm : ∀ p q, same p q = true → same q p = true)
    (htrans : ∀ p q r, same p q = true → same q r = true → same p r = true) {m : TMesh StlPoint} {s : StlUnique} {vs : List StlPoint}
    (h : UniqueInv same m s vs) (t : StlFace StlPoint) :
    ∃ s' ws, stlPushUnique same s (.data t) = s' ∧ UniqueInv same m s' (vs ++ ws) ∧ (∀ v ∈ ws, v ∈ corners t) ∧
      ((degenerate same t = true ∧ s'.mesh.faces = s.mesh.faces ∧ s'.normals = s.normals) ∨
       (degenerate same t = false ∧ s'.normals = s.normals ++ [t.n] ∧
        ∃ g, s'.mesh.faces = s.mesh.faces ++ [g] ∧ FaceIs same m.verts.length (vs ++ ws) t g)) := by
  obtain ⟨s1, a, vs1, e1, i1, f1, n1, c1⟩ := stlVertexId_spec h t.a
  obtain ⟨s2, b, vs2, e2, i2, f2, n2, c2⟩ := stlVertexId_spec i1 t.b
  obtain ⟨s3, c, vs3, e3, i3, f3, n3, c3⟩ := stlVertexId_spec i2 t.c
  obtain ⟨r1, ws1, g1, u1⟩ := corner_of c1
  obtain ⟨r2, ws2, g2, u2⟩ := corner_of c2
  obtain ⟨r3, ws3, g3, u3⟩ := corner_of c3
  have hab := index_eq_iff hsymm htrans r1 (List.prefix_refl _) c2 i2.diff
  have hac := index_eq_iff hsymm htrans r1 ⟨ws2, g2.symm⟩ c3 i3.diff
  have hbc := index_eq_iff hsymm htrans r2 (List.prefix_refl _) c3 i3.diff
  have hvs : vs3 = vs ++ (ws1 ++ ws2 ++ ws3) := by rw [g3, g2, g1]; simp
  have hmem : ∀ v ∈ ws1 ++ ws2 ++ ws3, v ∈ corners t := by
    intro v hv
    simp only [List.mem_append] at hv
    simp only [corners, List.mem_cons, List.not_mem_nil, or_false]
    rcases hv with (hv | hv) | hv
    · exact .inl (u1 v hv)
    · exact .inr (.inl (u2 v hv))
    · exact .inr (.inr (u3 v hv))
  have hin : ∀ {k : Nat} {us ws : List StlPoint} {p : StlPoint}, (∃ v, us[k]? = some v ∧ (v = p ∨ same v p = true)) → vs3 = us ++ ws →
      m.verts.length + k < s3.mesh.verts.length ∧ Refers same m.verts.length vs3 (m.verts.length + k) p := by
    rintro k us ws p ⟨v, hv, hp⟩ rfl
    have hg := getElem?_grow (ws := ws) hv
    refine ⟨?_, k, v, rfl, hg, hp⟩
    rw [i3.verts, List.length_append]
    have := (List.getElem?_eq_some_iff.1 hg).1
    omega
  obtain ⟨la, ra⟩ := hin r1 (ws := ws2 ++ ws3) (by rw [g3, g2]; simp)
  obtain ⟨lb, rb⟩ := hin r2 g3
  obtain ⟨lc, rc⟩ := hin r3 (ws := []) (by simp)
  have hpush : stlPushUnique same s (.data t) =
      match s3.mesh.tryAddConnection (m.verts.length + a) (m.verts.length + b) (m.verts.length + c) with
      | (m, .ok _) => { s3 with mesh := m, normals := s3.normals ++ [t.n] }
      | (m, .error _) => { s3 with mesh := m } := by
    simp only [stlPushUnique, e1, e2, e3]
    rcases s3.mesh.tryAddConnection (m.verts.length + a) (m.verts.length + b) (m.verts.length + c) with ⟨m', _ | _⟩ <;> rfl
  have hdeg : degenerate same t = true ↔
      (m.verts.length + a = m.verts.length + b ∨ m.verts.length + a = m.verts.length + c ∨ m.verts.length + b = m.verts.length + c) := by
    simp only [degenerate, Bool.or_eq_true, ← hab, ← hac, ← hbc, Nat.add_left_cancel_iff, or_assoc]
  rw [hpush, TMesh.tryAddConnection, if_neg (by omega)]
  by_cases hd : degenerate same t = true
  · rw [if_pos (hdeg.1 hd)]
    exact ⟨_, _, rfl, hvs ▸ i3, hmem, .inl ⟨hd, (f3.trans f2).trans f1, (n3.trans n2).trans n1⟩⟩
  · rw [if_neg (fun hc => hd (hdeg.2 hc))]
    refine ⟨_, _, rfl, ⟨hvs ▸ i3.verts, hvs ▸ i3.map, hvs ▸ i3.diff⟩, hmem, .inr ⟨by simpa using hd, ?_,
      ⟨m.verts.length + a, m.verts.length + b, m.verts.length + c⟩, ?_, ?_⟩⟩
    · show s3.normals ++ _ = _
      rw [n3, n2, n1]
    · show s3.mesh.faces ++ [_] = _
      rw [f3, f2, f1]
    · rw [← hvs]
      exact ⟨ra, rb, rc⟩

/-- **C66**: `load_stl_mesh_unique` yields the triangles of the file (those `load_stl_mesh_duped` yields, `c63_loaders`) in order,
except the degenerate ones, and one normal per face; no two of the vertices it adds have the same position, and all of them are
corners of triangles. `same` is the relation of the keys of the hash map. -/
theorem c66_unique (same : StlPoint → StlPoint → Bool) (hsymm : ∀ p q, same p q = true → same q p = true)
    (htrans : ∀ p q r, same p q = true → same q r = true → same p r = true) (T : FloatText F64) (bytes : Bytes) (format : StlFormat)
    (ts : List (StlFace StlPoint)) (r : Except (LineInfo StlError) Unit) (hfile : StlFile T bytes format ts r)
    (m : TMesh StlPoint) (ns : List StlPoint) :
    ∃ vs faces, loadStlMeshUnique same T bytes format m ns =
        some ((⟨m.verts ++ vs, m.faces ++ faces⟩, ns ++ (ts.filter fun t => !degenerate same t).map StlFace.n), r) ∧
      vs.Pairwise (fun p q => same p q = false) ∧ (∀ v ∈ vs, ∃ t ∈ ts, v ∈ corners t) ∧
      List.Forall₂ (FaceIs same m.verts.length vs) (ts.filter fun t => !degenerate same t) faces := by
  have key : ∀ (ts : List (StlFace StlPoint)) (s : StlUnique) (vs : List StlPoint), UniqueInv same m s vs →
      ∃ s' ws faces, ts.foldl (fun s t => stlPushUnique same s (.data t)) s = s' ∧ UniqueInv same m s' (vs ++ ws) ∧
        s'.mesh.faces = s.mesh.faces ++ faces ∧ s'.normals = s.normals ++ (ts.filter fun t => !degenerate same t).map StlFace.n ∧
        (∀ v ∈ ws, ∃ t ∈ ts, v ∈ corners t) ∧
        List.Forall₂ (FaceIs same m.verts.length (vs ++ ws)) (ts.filter fun t => !degenerate same t) faces := by
    intro ts
    induction ts with
    | nil =>
      intro s vs h
      exact ⟨s, [], [], rfl, by simpa using h, by simp, by simp, by simp, .nil⟩
    | cons t ts ih =>
      intro s vs h
      obtain ⟨s1, ws1, e1, i1, m1, h1⟩ := stlPushUnique_spec hsymm htrans h t
      obtain ⟨s2, ws2, faces, e2, i2, f2, n2, m2, h2⟩ := ih s1 (vs ++ ws1) i1
      rw [List.append_assoc] at i2 h2
      have hm : ∀ v ∈ ws1 ++ ws2, ∃ u ∈ t :: ts, v ∈ corners u := by
        intro v hv
        rcases List.mem_append.1 hv with hv | hv
        · exact ⟨t, by simp, m1 v hv⟩
        · obtain ⟨u, hu, hv⟩ := m2 v hv
          exact ⟨u, by simp [hu], hv⟩
      rw [List.foldl_cons, e1]
      rcases h1 with ⟨hd, hf, hn⟩ | ⟨hd, hn, g, hf, hg⟩
      · rw [List.filter_cons_of_neg (by simp [hd])]
        exact ⟨s2, ws1 ++ ws2, faces, e2, i2, by rw [f2, hf], by rw [n2, hn], hm, h2⟩
      · rw [List.filter_cons_of_pos (by simp [hd])]
        refine ⟨s2, ws1 ++ ws2, g :: faces, e2, i2, by rw [f2, hf]; simp, by rw [n2, hn]; simp, hm, .cons ?_ h2⟩
        rw [← List.append_assoc]
        exact ⟨Refers.grow hg.1, Refers.grow hg.2.1, Refers.grow hg.2.2⟩
  obtain ⟨s', vs, faces, e, i, hf, hn, hm, hfaces⟩ := key ts ⟨m, [], ns⟩ [] ⟨by simp, rfl, .nil⟩
  rw [List.nil_append] at i hfaces
  refine ⟨vs, faces, ?_, i.diff, hm, hfaces⟩
  rw [loadStlMeshUnique, stlForEach_eq (push := stlPushUnique same) (fun _ _ => rfl) hfile, e]
  show some ((s'.mesh, s'.normals), r) = _
  rw [hn, show s'.mesh = ⟨m.verts ++ vs, m.faces ++ faces⟩ by rw [← i.verts, ← hf]]

/-- the keys are compared with `==` (`/repo/src/point_3d.rs` L37) and hashed by their bits (L62-69): equal bits, no NaN -/
def Spec.sameBits (p q : StlPoint) : Bool :=
  decide (p = q) && !(p.x == .nan) && !(p.y == .nan) && !(p.z == .nan)

/-- the hypotheses of `c66_unique` hold for it -/
example : (∀ p q, sameBits p q = true → sameBits q p = true) ∧
    (∀ p q r, sameBits p q = true → sameBits q r = true → sameBits p r = true) := by
  constructor
  · intro p q h
    obtain rfl : p = q := by simp [sameBits] at h; exact h.1.1.1
    exact h
  · intro p q r h h'
    obtain rfl : p = q := by simp [sameBits] at h; exact h.1.1.1
    exact h'

/-- four triangles of two sharing an edge, one degenerate, one double -/
def exampleSoup : List (StlFace StlPoint × Bytes) :=
  exampleTriangles ++ [(⟨⟨f 0, f 0, f 0⟩, ⟨f 1, f 0, f 0⟩, ⟨f 1, f 0, f 0⟩, ⟨f 0, f 0, f 1⟩⟩, [0, 0])]

example : loadStlMeshUnique sameBits natF64 (binaryFile exampleHeader exampleSoup) .Binary TMesh.empty [] =
    some ((⟨[⟨f 0, f 0, f 0⟩, ⟨f 1, f 0, f 0⟩, ⟨f 0, f (3/2), f 0⟩, ⟨f 0, f 0, f (-1/4)⟩], [⟨0, 1, 2⟩, ⟨0, 1, 3⟩]⟩,
      [⟨f 0, f 0, f 1⟩, ⟨f 0, f 1, f 0⟩]), .ok ()) := by decide +kernel

/-- C66 is violated for 0.0 and -0.0: they are equal, but their hashes are not, so that both stay as vertices with the same position. -/
theorem c66_violated : ∃ ts : List (StlFace StlPoint × Bytes),
    ts = [(⟨⟨f 0, f 0, f 0⟩, ⟨f 1, f 0, f 0⟩, ⟨f 0, f 0, .fin true 0⟩, ⟨f 0, f 0, f 1⟩⟩, [0, 0])] ∧
    loadStlMeshUnique sameBits natF64 (binaryFile exampleHeader ts) .Binary TMesh.empty [] =
      some ((⟨[⟨f 0, f 0, f 0⟩, ⟨f 1, f 0, f 0⟩, ⟨f 0, f 0, .fin true 0⟩], [⟨0, 1, 2⟩]⟩, [⟨f 0, f 0, f 1⟩]), .ok ()) ∧
    Scalar.eq (f 0) (F64.fin true 0) = true := ⟨_, rfl, by decide +kernel, by decide +kernel⟩

end R3D

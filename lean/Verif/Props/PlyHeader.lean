import Verif.Model.Ply
import Verif.Props.Stl
import Verif.Props.Psl
/-!
The header of .ply files, for C59 - C62.
-/
namespace R3D
open Spec

/-! ### specification -/

/-- the names of the scalar types of the format and their sizes in bytes -/
def Spec.plyTypes : List (Bytes × Nat) :=
  [(b!"char", 1), (b!"uchar", 1), (b!"short", 2), (b!"ushort", 2), (b!"int", 4), (b!"uint", 4), (b!"float", 4), (b!"double", 8),
   (b!"int8", 1), (b!"uint8", 1), (b!"int16", 2), (b!"uint16", 2), (b!"int32", 4), (b!"uint32", 4), (b!"float32", 4), (b!"float64", 8)]

/-- the names of the types a coordinate may have -/
def Spec.coordTypes : List (Bytes × VertexType) :=
  [(b!"float", .Float), (b!"float32", .Float), (b!"double", .Double), (b!"float64", .Double)]

/-- the names of the types the numbers of a list may have -/
def Spec.indexTypes : List (Bytes × FaceType) :=
  [(b!"char", .Char), (b!"uchar", .UChar), (b!"short", .Short), (b!"ushort", .UShort), (b!"int", .Int), (b!"uint", .UInt),
   (b!"int8", .Char), (b!"uint8", .UChar), (b!"int16", .Short), (b!"uint16", .UShort), (b!"int32", .Int), (b!"uint32", .UInt)]

/-- a line `property type name ...` -/
def Spec.PropertyLine (l ty name : Bytes) : Prop :=
  (∃ r, l = b!"property" ++ r) ∧ ∃ w ws, WordsOf blank l (w :: ty :: name :: ws)

/-- the property that is the coordinate on an axis -/
def Spec.axisName : PlyAxis → Bytes
  | .X => b!"x"
  | .Y => b!"y"
  | .Z => b!"z"

/-- the declaration of a coordinate -/
def Spec.CoordLine (l : Bytes) (a : PlyAxis) (t : VertexType) : Prop := ∃ ty, PropertyLine l ty (axisName a) ∧ (ty, t) ∈ coordTypes

/-- the declaration of a property of vertices that is no coordinate, `n` bytes large -/
def Spec.OtherLine (l : Bytes) (n : Nat) : Prop := ∃ ty name, PropertyLine l ty name ∧ (ty, n) ∈ plyTypes ∧ ∀ a, name ≠ axisName a

/-- the declaration of a property of faces that is no list, `n` bytes large -/
def Spec.FaceOtherLine (l : Bytes) (n : Nat) : Prop :=
  (∃ r, l = b!"property" ++ r) ∧ (¬∃ r, l = b!"property list" ++ r) ∧ ∃ w ty ws, WordsOf blank l (w :: ty :: ws) ∧ (ty, n) ∈ plyTypes

/-- the declaration of the list of the vertices of a face -/
def Spec.FaceListLine (l : Bytes) (tCount tIndex : FaceType) : Prop :=
  (∃ r, l = b!"property list" ++ r) ∧ (∃ a b, l = a ++ b!"vertex_indices" ++ b ∨ l = a ++ b!"vertex_index" ++ b) ∧
  ∃ w v tc ti ws, WordsOf blank l (w :: v :: tc :: ti :: ws) ∧ (tc, tCount) ∈ indexTypes ∧ (ti, tIndex) ∈ indexTypes

/-- `element vertex n` / `element face n` -/
def Spec.ElementLine (kind l : Bytes) (n : Nat) : Prop :=
  (∃ r, l = b!"element " ++ kind ++ r) ∧ ∃ u v w ws, WordsOf blank l (u :: v :: w :: ws) ∧ fromAscii parseNat w = some n

/-- How the vertices are declared: the coordinates in the order of the file with their types, and the sizes of the properties
before, between and after them. -/
structure Spec.VertexDecl where
  before : List Nat
  a1 : PlyAxis
  t1 : VertexType
  mid1 : List Nat
  a2 : PlyAxis
  t2 : VertexType
  mid2 : List Nat
  a3 : PlyAxis
  t3 : VertexType
  after : List Nat

/-- each coordinate once -/
def Spec.VertexDecl.Distinct (d : VertexDecl) : Prop := d.a1 ≠ d.a2 ∧ d.a1 ≠ d.a3 ∧ d.a2 ≠ d.a3

/-- the lines with the declaration `d` -/
def Spec.VertexDecl.Lines (d : VertexDecl) (ls : List Bytes) : Prop :=
  ∃ lb l1 lm1 l2 lm2 l3 la, ls = lb ++ l1 :: (lm1 ++ l2 :: (lm2 ++ l3 :: la)) ∧
    List.Forall₂ OtherLine lb d.before ∧ CoordLine l1 d.a1 d.t1 ∧
    List.Forall₂ OtherLine lm1 d.mid1 ∧ CoordLine l2 d.a2 d.t2 ∧
    List.Forall₂ OtherLine lm2 d.mid2 ∧ CoordLine l3 d.a3 d.t3 ∧ List.Forall₂ OtherLine la d.after

/-- how the faces are declared -/
structure Spec.FaceDecl where
  before : List Nat
  tCount : FaceType
  tIndex : FaceType
  after : List Nat

/-- the lines with the declaration `d` -/
def Spec.FaceDecl.Lines (d : FaceDecl) (ls : List Bytes) : Prop :=
  ∃ lb l la, ls = lb ++ l :: la ∧ List.Forall₂ FaceOtherLine lb d.before ∧ FaceListLine l d.tCount d.tIndex ∧
    List.Forall₂ FaceOtherLine la d.after

/-- the format line -/
def Spec.formatLine : PlyFormat → Bytes
  | .Ascii => b!"format ascii 1.0"
  | .Binary .little => b!"format binary_little_endian 1.0"
  | .Binary .big => b!"format binary_big_endian 1.0"

/-- a line that may stand anywhere in the header -/
def Spec.isComment (l : Bytes) : Bool := (b!"comment").isPrefixOf l || (b!"obj_info").isPrefixOf l

/-- what a header declares -/
structure Spec.PlyDecl where
  format : PlyFormat
  nVertices : Nat
  vertex : VertexDecl
  face : Option (Nat × FaceDecl)

/-- the lines of a header with the declaration `d`, with comments anywhere -/
def Spec.PlyDecl.Header (d : PlyDecl) (ls : List Bytes) : Prop :=
  ∃ pre lv vs fs, ls = pre ++ [b!"end_header"] ∧
    pre.filter (fun l => !isComment l) = b!"ply" :: formatLine d.format :: lv :: (vs ++ fs) ∧
    ElementLine b!"vertex" lv d.nVertices ∧ d.vertex.Lines vs ∧
    match d.face with
    | none => fs = []
    | some (n, fd) => ∃ lf fs', fs = lf :: fs' ∧ ElementLine b!"face" lf n ∧ fd.Lines fs'

/-- `text` is made of these lines, each with white space behind it and a line break -/
def Spec.TextOf (text : Bytes) (ls : List Bytes) : Prop :=
  ∃ cs, text = List.flatMap nl cs ∧ List.Forall₂ (fun c l => (10 : UInt8) ∉ c ∧ Trimmed c l) cs ls

/-- the type of the coordinate on an axis -/
def Spec.VertexDecl.typeOf (d : VertexDecl) (a : PlyAxis) : VertexType :=
  if d.a1 = a then d.t1 else if d.a2 = a then d.t2 else d.t3

/-- the size of the properties and their number -/
def Spec.total (l : List Nat) : BytesWords := ⟨l.sum, l.length⟩

/-- the orders of the coordinates -/
def Spec.orders : List (PlyAxis × PlyAxis × PlyAxis × VertexOrder) :=
  [(.X, .Y, .Z, .Xyz), (.X, .Z, .Y, .Xzy), (.Y, .X, .Z, .Yxz), (.Y, .Z, .X, .Yzx), (.Z, .X, .Y, .Zxy), (.Z, .Y, .X, .Zyx)]

/-- What the loader knows after the header. The types are listed by axis (x, y, z), the gaps by position. -/
def Spec.PlyDecl.Known (d : PlyDecl) (h : PlyHeader) : Prop :=
  h.format = d.format ∧ h.vertex.count = d.nVertices ∧ (d.vertex.a1, d.vertex.a2, d.vertex.a3, h.vertex.order) ∈ orders ∧
  h.vertex.first = d.vertex.typeOf .X ∧ h.vertex.snd = d.vertex.typeOf .Y ∧ h.vertex.third = d.vertex.typeOf .Z ∧
  h.vertex.before = total d.vertex.before ∧ h.vertex.betweenFirstSnd = total d.vertex.mid1 ∧
  h.vertex.betweenSndThird = total d.vertex.mid2 ∧ h.vertex.after = total d.vertex.after ∧
  h.face = d.face.map fun x => ⟨x.1, x.2.tCount, x.2.tIndex, total x.2.before, total x.2.after⟩

/-! ### words -/

theorem tryFrom_size {w : Bytes} {n : Nat} (h : (w, n) ∈ plyTypes) : ∃ t, PlyType.tryFrom w = .ok t ∧ t.sizeBytes = n := by
  simp only [plyTypes, List.mem_cons, Prod.mk.injEq, List.not_mem_nil, or_false] at h
  rcases h with h | h | h | h | h | h | h | h | h | h | h | h | h | h | h | h <;> obtain ⟨rfl, rfl⟩ := h <;> exact ⟨_, rfl, rfl⟩

theorem tryFrom_coord {w : Bytes} {t : VertexType} (h : (w, t) ∈ coordTypes) :
    ∃ p, PlyType.tryFrom w = .ok p ∧ VertexType.tryFrom p = .ok t := by
  simp only [coordTypes, List.mem_cons, Prod.mk.injEq, List.not_mem_nil, or_false] at h
  rcases h with h | h | h | h <;> obtain ⟨rfl, rfl⟩ := h <;> exact ⟨_, rfl, rfl⟩

theorem tryFrom_index {w : Bytes} {t : FaceType} (h : (w, t) ∈ indexTypes) :
    ∃ p, PlyType.tryFrom w = .ok p ∧ FaceType.tryFrom p = .ok t := by
  simp only [indexTypes, List.mem_cons, Prod.mk.injEq, List.not_mem_nil, or_false] at h
  rcases h with h | h | h | h | h | h | h | h | h | h | h | h <;> obtain ⟨rfl, rfl⟩ := h <;> exact ⟨_, rfl, rfl⟩

theorem startsWith_append (a b : Bytes) : startsWith (a ++ b) a = true := startsWith_iff.2 ⟨b, rfl⟩

/-! ### single lines -/

/-- the state is in the part of the header with elements and properties -/
def Ready (s : PlyHeaderState) : Prop := s.plyFound = true ∧ s.format.isSome = true

theorem line_property {l : Bytes} {s : PlyHeaderState} (hs : Ready s) (h : ∃ r, l = b!"property" ++ r) :
    plyHeaderLine l s = plyHeaderRest l s ∧ isComment l = false := by
  obtain ⟨r, rfl⟩ := h
  obtain ⟨h1, h2⟩ := hs
  have h2' : s.format.isNone = false := by simpa using h2
  constructor
  · simp [plyHeaderLine, h1, h2', startsWith, List.isPrefixOf]
  · simp [isComment, List.isPrefixOf]

theorem rest_property {l : Bytes} {s : PlyHeaderState} (h : ∃ r, l = b!"property" ++ r) :
    plyHeaderRest l s = match s.readState with
      | .Vertex => (plyVertexProperty l s).map fun r => r.map .next
      | .Face => some ((plyFaceProperty l s).map .next)
      | .Meta => some (.error .PropertyLineLocation) := by
  rw [plyHeaderRest, if_pos (startsWith_iff.2 h)]
  rcases s.readState <;> rfl

/-- the state after other properties -/
def addOther (s : PlyHeaderState) (b w : Nat) : PlyHeaderState :=
  if s.nTypesFound = 0 then { s with vertexBefore := ⟨s.vertexBefore.bytes + b, s.vertexBefore.words + w⟩ }
  else if s.nTypesFound = 1 then { s with vertexBetweenFirstSnd := ⟨s.vertexBetweenFirstSnd.bytes + b, s.vertexBetweenFirstSnd.words + w⟩ }
  else if s.nTypesFound = 2 then { s with vertexBetweenSndThird := ⟨s.vertexBetweenSndThird.bytes + b, s.vertexBetweenSndThird.words + w⟩ }
  else { s with after := ⟨s.after.bytes + b, s.after.words + w⟩ }

theorem addOther_zero (s : PlyHeaderState) : addOther s 0 0 = s := by
  unfold addOther
  by_cases h0 : s.nTypesFound = 0
  · rw [if_pos h0]; rfl
  rw [if_neg h0]
  by_cases h1 : s.nTypesFound = 1
  · rw [if_pos h1]; rfl
  rw [if_neg h1]
  by_cases h2 : s.nTypesFound = 2
  · rw [if_pos h2]; rfl
  rw [if_neg h2]; rfl

theorem addOther_add (s : PlyHeaderState) (b w b' w' : Nat) : addOther (addOther s b w) b' w' = addOther s (b + b') (w + w') := by
  unfold addOther
  by_cases h0 : s.nTypesFound = 0
  · simp [h0, Nat.add_assoc]
  by_cases h1 : s.nTypesFound = 1
  · simp [h1, Nat.add_assoc]
  by_cases h2 : s.nTypesFound = 2
  · simp [h2, Nat.add_assoc]
  · simp [h0, h1, h2, Nat.add_assoc]

theorem addOther_frame (s : PlyHeaderState) (b w : Nat) : (addOther s b w).readState = s.readState ∧ (addOther s b w).plyFound = s.plyFound ∧
    (addOther s b w).format = s.format := by
  unfold addOther
  by_cases h0 : s.nTypesFound = 0
  · simp [h0]
  by_cases h1 : s.nTypesFound = 1
  · simp [h1]
  by_cases h2 : s.nTypesFound = 2
  · simp [h2]
  · simp [h0, h1, h2]

theorem vertexProperty_other {l : Bytes} {n : Nat} (h : OtherLine l n) (s : PlyHeaderState) :
    plyVertexProperty l s = some (.ok (addOther s n 1)) := by
  obtain ⟨ty, name, ⟨-, w, ws, hw⟩, ht, hn⟩ := h
  obtain ⟨t, h1, rfl⟩ := tryFrom_size ht
  have hx : name ≠ b!"x" := hn .X
  have hy : name ≠ b!"y" := hn .Y
  have hz : name ≠ b!"z" := hn .Z
  simp only [plyVertexProperty, toWords_iff.2 hw, plyTypeWord, List.getElem?_cons_succ, List.getElem?_cons_zero, h1]
  rw [if_neg hx, if_neg hy, if_neg hz]
  unfold addOther
  by_cases h0 : s.nTypesFound = 0
  · simp [h0, BytesWords.add]
  by_cases h1 : s.nTypesFound = 1
  · simp [h1, BytesWords.add]
  by_cases h2 : s.nTypesFound = 2
  · simp [h2, BytesWords.add]
  · simp [h0, h1, h2, BytesWords.add]

/-- the state with the type of an axis -/
def setType (s : PlyHeaderState) (t : VertexType) : PlyAxis → PlyHeaderState
  | .X => { s with fstType := some t }
  | .Y => { s with sndType := some t }
  | .Z => { s with thirdType := some t }

theorem vertexProperty_coord {l : Bytes} {a : PlyAxis} {t : VertexType} (h : CoordLine l a t) (s : PlyHeaderState) :
    plyVertexProperty l s = ((setType s t a).addAxis a).map .ok := by
  obtain ⟨ty, ⟨-, w, ws, hw⟩, ht⟩ := h
  obtain ⟨p, h1, h2⟩ := tryFrom_coord ht
  simp only [plyVertexProperty, toWords_iff.2 hw, plyTypeWord, List.getElem?_cons_succ, List.getElem?_cons_zero, h1, h2]
  cases a
  · rw [if_pos (by decide)]; rfl
  · rw [if_neg (by decide), if_pos (by decide)]; rfl
  · rw [if_neg (by decide), if_neg (by decide), if_pos (by decide)]; rfl

/-- the state after other properties of faces -/
def addFaceOther (s : PlyHeaderState) (b w : Nat) : PlyHeaderState :=
  if s.faceCountType.isSome then { s with faceAfter := ⟨s.faceAfter.bytes + b, s.faceAfter.words + w⟩ }
  else { s with faceBefore := ⟨s.faceBefore.bytes + b, s.faceBefore.words + w⟩ }

theorem addFaceOther_zero (s : PlyHeaderState) : addFaceOther s 0 0 = s := by
  unfold addFaceOther
  by_cases h0 : s.faceCountType.isSome = true
  · rw [if_pos h0]; rfl
  · rw [if_neg h0]; rfl

theorem addFaceOther_add (s : PlyHeaderState) (b w b' w' : Nat) :
    addFaceOther (addFaceOther s b w) b' w' = addFaceOther s (b + b') (w + w') := by
  unfold addFaceOther
  by_cases h0 : s.faceCountType.isSome = true
  · simp [h0, Nat.add_assoc]
  · simp [h0, Nat.add_assoc]

theorem addFaceOther_frame (s : PlyHeaderState) (b w : Nat) : (addFaceOther s b w).readState = s.readState ∧
    (addFaceOther s b w).plyFound = s.plyFound ∧ (addFaceOther s b w).format = s.format := by
  unfold addFaceOther
  by_cases h0 : s.faceCountType.isSome = true
  · simp [h0]
  · simp [h0]

theorem faceProperty_other {l : Bytes} {n : Nat} (h : FaceOtherLine l n) (s : PlyHeaderState) :
    plyFaceProperty l s = .ok (addFaceOther s n 1) := by
  obtain ⟨-, hl, w, ty, ws, hw, ht⟩ := h
  obtain ⟨t, h1, rfl⟩ := tryFrom_size ht
  rw [plyFaceProperty, if_neg fun h => hl (startsWith_iff.1 h)]
  simp only [toWords_iff.2 hw, plyTypeWord, List.getElem?_cons_succ, List.getElem?_cons_zero, h1]
  unfold addFaceOther
  by_cases h0 : s.faceCountType.isSome = true
  · rw [if_pos h0, if_pos h0]; rfl
  · rw [if_neg h0, if_neg h0]; rfl

theorem contains_of (a b c : Bytes) (hb : b ≠ []) : containsBytes (a ++ b ++ c) b = some true := by
  obtain ⟨r, h1, h2⟩ := (c72_contains (a ++ b ++ c) b).2 hb
  rw [h1, h2.2 ⟨a, c, rfl⟩]

theorem faceProperty_list {l : Bytes} {tc ti : FaceType} (h : FaceListLine l tc ti) (s : PlyHeaderState) :
    plyFaceProperty l s = .ok { s with faceCountType := some tc, faceIndexType := some ti } := by
  obtain ⟨h1, ⟨a, b, h2⟩, w, v, wc, wi, ws, hw, hc, hi⟩ := h
  obtain ⟨pc, c1, c2⟩ := tryFrom_index hc
  obtain ⟨pi, i1, i2⟩ := tryFrom_index hi
  rw [plyFaceProperty, if_pos (startsWith_iff.2 h1), if_pos (by
    rcases h2 with rfl | rfl
    · exact .inl (contains_of _ _ _ (by decide))
    · exact .inr (contains_of _ _ _ (by decide)))]
  simp only [toWords_iff.2 hw, plyFaceTypeWord, plyTypeWord, List.getElem?_cons_succ, List.getElem?_cons_zero, c1, c2, i1, i2]

theorem line_vertex {l : Bytes} {n : Nat} {s : PlyHeaderState} (hs : Ready s) (hv : s.nVertices = none) (h : ElementLine b!"vertex" l n) :
    plyHeaderLine l s = some (.ok (.next { s with readState := .Vertex, nVertices := some n })) := by
  obtain ⟨⟨r, rfl⟩, u, v, w, ws, hw, hn⟩ := h
  obtain ⟨h1, h2⟩ := hs
  have h2' : s.format.isNone = false := by simpa using h2
  have h3 : nthNum parseNat (toWords (b!"element " ++ b!"vertex" ++ r)) 2 = some n := by
    rw [toWords_iff.2 hw]
    exact hn
  simp only [plyHeaderLine, h3]
  simp [h1, h2', hv, startsWith, List.isPrefixOf]

theorem line_face {l : Bytes} {n : Nat} {s : PlyHeaderState} (hs : Ready s) (hv : s.nFaces = none) (h : ElementLine b!"face" l n) :
    plyHeaderLine l s = some (.ok (.next { s with readState := .Face, nFaces := some n })) := by
  obtain ⟨⟨r, rfl⟩, u, v, w, ws, hw, hn⟩ := h
  obtain ⟨h1, h2⟩ := hs
  have h2' : s.format.isNone = false := by simpa using h2
  have h3 : nthNum parseNat (toWords (b!"element " ++ b!"face" ++ r)) 2 = some n := by
    rw [toWords_iff.2 hw]
    exact hn
  simp only [plyHeaderLine, h3]
  simp [h1, h2', hv, startsWith, List.isPrefixOf]

/-! ### runs of lines -/

/-- the lines lead from one state to another -/
def Advances : List Bytes → PlyHeaderState → PlyHeaderState → Prop
  | [], s, s' => s = s'
  | l :: ls, s, s' => ∃ s1, plyHeaderLine l s = some (.ok (.next s1)) ∧ Advances ls s1 s'

theorem Advances.append {a b : List Bytes} {s s1 s2 : PlyHeaderState} (h : Advances a s s1) (h' : Advances b s1 s2) :
    Advances (a ++ b) s s2 := by
  induction a generalizing s with
  | nil => cases h; exact h'
  | cons l a ih =>
    obtain ⟨t, h1, h2⟩ := h
    exact ⟨t, h1, ih h2⟩

theorem Advances.comments {ls : List Bytes} {s s' : PlyHeaderState} (h : Advances (ls.filter fun l => !isComment l) s s') : Advances ls s s' := by
  induction ls generalizing s with
  | nil => exact h
  | cons l ls ih =>
    by_cases hc : isComment l = true
    · rw [List.filter_cons_of_neg (by simp [hc])] at h
      refine ⟨s, ?_, ih h⟩
      simp only [isComment, Bool.or_eq_true] at hc
      unfold plyHeaderLine
      by_cases h1 : startsWith l b!"comment" = true
      · rw [if_pos h1]
      · rw [if_neg h1, if_pos (show startsWith _ _ = true from hc.resolve_left h1)]
    · rw [List.filter_cons_of_pos (by simp [hc])] at h
      obtain ⟨t, h1, h2⟩ := h
      exact ⟨t, h1, ih h2⟩

theorem advances_others {ls : List Bytes} {ns : List Nat} (h : List.Forall₂ OtherLine ls ns) {s : PlyHeaderState} (hs : Ready s)
    (hr : s.readState = .Vertex) : Advances ls s (addOther s ns.sum ns.length) := by
  induction h generalizing s with
  | nil => exact (addOther_zero s).symm
  | cons h1 _ ih =>
    rename_i l n ls ns _
    have hp : ∃ r, l = b!"property" ++ r := by obtain ⟨_, _, ⟨h, -⟩, -⟩ := h1; exact h
    obtain ⟨f1, f2, f3⟩ := addOther_frame s n 1
    refine ⟨addOther s n 1, ?_, ?_⟩
    · rw [(line_property hs hp).1, rest_property hp, hr]
      simp only [vertexProperty_other h1]
      rfl
    · have := ih (s := addOther s n 1) ⟨by rw [f2]; exact hs.1, by rw [f3]; exact hs.2⟩ (by rw [f1, hr])
      rw [addOther_add] at this
      rw [List.sum_cons, List.length_cons, Nat.add_comm ns.length]
      exact this

theorem advances_faceOthers {ls : List Bytes} {ns : List Nat} (h : List.Forall₂ FaceOtherLine ls ns) {s : PlyHeaderState} (hs : Ready s)
    (hr : s.readState = .Face) : Advances ls s (addFaceOther s ns.sum ns.length) := by
  induction h generalizing s with
  | nil => exact (addFaceOther_zero s).symm
  | cons h1 _ ih =>
    rename_i l n ls ns _
    have hp : ∃ r, l = b!"property" ++ r := h1.1
    obtain ⟨f1, f2, f3⟩ := addFaceOther_frame s n 1
    refine ⟨addFaceOther s n 1, ?_, ?_⟩
    · rw [(line_property hs hp).1, rest_property hp, hr]
      simp only [faceProperty_other h1]
      rfl
    · have := ih (s := addFaceOther s n 1) ⟨by rw [f2]; exact hs.1, by rw [f3]; exact hs.2⟩ (by rw [f1, hr])
      rw [addFaceOther_add] at this
      rw [List.sum_cons, List.length_cons, Nat.add_comm ns.length]
      exact this

theorem advances_coord {l : Bytes} {a : PlyAxis} {t : VertexType} (h : CoordLine l a t) {s s' : PlyHeaderState} (hs : Ready s)
    (hr : s.readState = .Vertex) (hs' : (setType s t a).addAxis a = some s') : Advances [l] s s' := by
  have hp : ∃ r, l = b!"property" ++ r := by obtain ⟨_, ⟨h, -⟩, -⟩ := h; exact h
  refine ⟨s', ?_, rfl⟩
  rw [(line_property hs hp).1, rest_property hp, hr]
  simp only [vertexProperty_coord h, hs']
  rfl

/-- the state after the declaration of the vertices -/
def afterVertices (f : PlyFormat) (n : Nat) (d : VertexDecl) : PlyHeaderState where
  vertexOrder := [d.a1, d.a2, d.a3]
  iVertexOrder := 3
  plyFound := true
  readState := .Vertex
  format := some f
  nVertices := some n
  nFaces := none
  fstType := some (d.typeOf .X)
  sndType := some (d.typeOf .Y)
  thirdType := some (d.typeOf .Z)
  nTypesFound := 3
  vertexBefore := total d.before
  vertexBetweenFirstSnd := total d.mid1
  vertexBetweenSndThird := total d.mid2
  after := total d.after
  faceCountType := none
  faceIndexType := none
  faceBefore := ⟨0, 0⟩
  faceAfter := ⟨0, 0⟩

/-- the state after the element line of the vertices -/
def afterElement (f : PlyFormat) (n : Nat) : PlyHeaderState :=
  { PlyHeaderState.init with plyFound := true, format := some f, readState := .Vertex, nVertices := some n }

theorem advances_vertices {f : PlyFormat} {n : Nat} {d : VertexDecl} (hd : d.Distinct) {ls : List Bytes} (h : d.Lines ls) :
    Advances ls (afterElement f n) (afterVertices f n d) := by
  obtain ⟨lb, l1, lm1, l2, lm2, l3, la, rfl, hb, h1, hm1, h2, hm2, h3, ha⟩ := h
  obtain ⟨d12, d13, d23⟩ := hd
  have r : ∀ {s : PlyHeaderState}, s.plyFound = true → s.format = some f → Ready s := fun h h' => ⟨h, by rw [h']; rfl⟩
  have A1 := advances_others hb (s := afterElement f n) (r rfl rfl) rfl
  have A : Advances (lb ++ ([l1] ++ (lm1 ++ ([l2] ++ (lm2 ++ ([l3] ++ la)))))) (afterElement f n) (afterVertices f n d) := by
    refine A1.append ?_
    rcases d with ⟨b, a1, t1, m1, a2, t2, m2, a3, t3, af⟩
    dsimp only at *
    have fin : ∀ {s s' : PlyHeaderState}, s' = addOther s af.sum af.length → Ready s → s.readState = .Vertex → Advances la s s' :=
      fun h h1 h2 => h ▸ advances_others ha h1 h2
    cases a1 <;> cases a2 <;> cases a3 <;> first | exact absurd rfl d12 | exact absurd rfl d13 | exact absurd rfl d23 |
      exact ((advances_coord h1 (r rfl rfl) rfl rfl).append ((advances_others hm1 (r rfl rfl) rfl).append
        ((advances_coord h2 (r rfl rfl) rfl rfl).append ((advances_others hm2 (r rfl rfl) rfl).append
        ((advances_coord h3 (r rfl rfl) rfl rfl).append (fin (by
          simp [addOther, afterVertices, afterElement, PlyHeaderState.init, total, setType, VertexDecl.typeOf]) (r rfl rfl) rfl))))))
  simpa using A

/-- the state after the declaration of the faces -/
def afterFaces (s : PlyHeaderState) (n : Nat) (d : FaceDecl) : PlyHeaderState :=
  { s with readState := .Face, nFaces := some n, faceCountType := some d.tCount, faceIndexType := some d.tIndex,
           faceBefore := total d.before, faceAfter := total d.after }

theorem advances_faces {s : PlyHeaderState} (hs : Ready s) (h1 : s.faceCountType = none) (h2 : s.faceBefore = ⟨0, 0⟩) (h3 : s.faceAfter = ⟨0, 0⟩)
    (h4 : s.nFaces = none) {n : Nat} {d : FaceDecl} {lf : Bytes} {ls : List Bytes} (hf : ElementLine b!"face" lf n) (h : d.Lines ls) :
    Advances (lf :: ls) s (afterFaces s n d) := by
  obtain ⟨lb, l, la, rfl, hb, hl, ha⟩ := h
  refine ⟨_, line_face hs h4 hf, ?_⟩
  have A1 := advances_faceOthers hb (s := { s with readState := .Face, nFaces := some n }) hs rfl
  rw [show lb ++ l :: la = lb ++ ([l] ++ la) from rfl]
  refine A1.append ?_
  have hp : ∃ r, l = b!"property" ++ r := by
    obtain ⟨⟨r, rfl⟩, -⟩ := hl
    exact ⟨b!" list" ++ r, rfl⟩
  have A2 : Advances [l] (addFaceOther { s with readState := .Face, nFaces := some n } d.before.sum d.before.length)
      { s with readState := .Face, nFaces := some n, faceCountType := some d.tCount, faceIndexType := some d.tIndex,
               faceBefore := total d.before } := by
    refine ⟨_, ?_, rfl⟩
    obtain ⟨f1, f2, f3⟩ := addFaceOther_frame { s with readState := .Face, nFaces := some n } d.before.sum d.before.length
    rw [(line_property ⟨by rw [f2]; exact hs.1, by rw [f3]; exact hs.2⟩ hp).1, rest_property hp, f1]
    simp only [faceProperty_list hl]
    simp [addFaceOther, h1, h2, total, Except.map]
  refine A2.append ?_
  have A3 := advances_faceOthers ha (s := { afterFaces s n d with faceAfter := s.faceAfter }) hs rfl
  simpa [addFaceOther, h3, afterFaces, total] using A3

theorem fetchLine_nl {c l : Bytes} (hc : (10 : UInt8) ∉ c) (h : Trimmed c l) (rest : Bytes) : fetchLine (nl c ++ rest) = some (l, rest) := by
  have e : readUntilNl (nl c ++ rest) = (nl c, rest) := by
    clear h
    induction c with
    | nil => rfl
    | cons b c ih =>
      simp only [List.mem_cons, not_or] at hc
      simp only [nl, List.cons_append, readUntilNl, if_neg (Ne.symm hc.1)]
      rw [show readUntilNl (c ++ [10] ++ rest) = _ from ih hc.2]
      rfl
  unfold fetchLine
  rw [e]
  dsimp only
  rw [if_neg (by simp [nl]), cleanLine_nl c l h]

theorem headerLoop_advances {ls : List Bytes} {s s' : PlyHeaderState} (h : Advances ls s s') {text : Bytes} (ht : TextOf text ls)
    (rest : Bytes) (N i : Nat) : plyHeaderLoop (N + ls.length) (text ++ rest) i s = plyHeaderLoop N rest (i + ls.length) s' := by
  obtain ⟨cs, rfl, hcs⟩ := ht
  induction hcs generalizing s i with
  | nil => cases h; rfl
  | cons h1 _ ih =>
    rename_i c l cs ls _
    obtain ⟨t, h2, h3⟩ := h
    rw [List.flatMap_cons, List.append_assoc, List.length_cons, ← Nat.add_assoc, plyHeaderLoop, fetchLine_nl h1.1 h1.2]
    simp only [h2]
    rw [ih h3, Nat.add_assoc i, Nat.add_comm 1]

theorem forall₂_split {β γ : Type} {R : β → γ → Prop} {l : List β} {a b : List γ} (h : List.Forall₂ R l (a ++ b)) :
    ∃ la lb, l = la ++ lb ∧ List.Forall₂ R la a ∧ List.Forall₂ R lb b := by
  induction a generalizing l with
  | nil => exact ⟨[], l, rfl, .nil, h⟩
  | cons x a ih =>
    cases h with
    | cons h1 h2 =>
      obtain ⟨la, lb, rfl, h3, h4⟩ := ih h2
      exact ⟨_ :: la, lb, rfl, .cons h1 h3, h4⟩

theorem textOf_append {text : Bytes} {a b : List Bytes} (h : TextOf text (a ++ b)) : ∃ ta tb, text = ta ++ tb ∧ TextOf ta a ∧ TextOf tb b := by
  obtain ⟨cs, rfl, hcs⟩ := h
  obtain ⟨ca, cb, rfl, h1, h2⟩ := forall₂_split hcs
  exact ⟨_, _, List.flatMap_append, ⟨ca, rfl, h1⟩, cb, rfl, h2⟩

theorem textOf_length {text : Bytes} {ls : List Bytes} (h : TextOf text ls) : ls.length ≤ text.length := by
  obtain ⟨cs, rfl, hcs⟩ := h
  rw [← hcs.length_eq]
  clear hcs
  induction cs with
  | nil => simp
  | cons c cs ih => simp only [List.flatMap_cons, List.length_append, List.length_cons, nl, List.length_nil]; omega

/-- **the header**: with comments anywhere, any other properties and any white space at the ends of the lines, the loader knows
what was declared, and goes on behind the header. -/
theorem ply_header (d : PlyDecl) (hd : d.vertex.Distinct) {ls : List Bytes} (h : d.Header ls) {text : Bytes} (ht : TextOf text ls)
    (rest : Bytes) : ∃ hdr, plyLoadHeader (text ++ rest) = some (.ok (hdr, rest, ls.length)) ∧ d.Known hdr := by
  obtain ⟨pre, lv, vs, fs, rfl, hf, hlv, hvs, hfs⟩ := h
  obtain ⟨ta, tb, rfl, hta, htb⟩ := textOf_append ht
  have hl := textOf_length hta
  obtain ⟨s', hs', hk⟩ : ∃ s', Advances pre PlyHeaderState.init s' ∧ ∃ hdr, plyHeaderLine b!"end_header" s' = some (.ok (.done hdr)) ∧ d.Known hdr := by
    have A0 : Advances [b!"ply", formatLine d.format, lv] PlyHeaderState.init (afterElement d.format d.nVertices) := by
      refine ⟨{ PlyHeaderState.init with plyFound := true }, rfl, { PlyHeaderState.init with plyFound := true, format := some d.format }, ?_,
        _, line_vertex ⟨rfl, rfl⟩ rfl hlv, rfl⟩
      rcases d.format with _ | _ | _ <;> rfl
    have A1 := A0.append (advances_vertices hd hvs)
    obtain ⟨o, ho⟩ : ∃ o, (d.vertex.a1, d.vertex.a2, d.vertex.a3, o) ∈ orders ∧ VertexOrder.tryFrom [d.vertex.a1, d.vertex.a2, d.vertex.a3] = .ok o := by
      obtain ⟨d12, d13, d23⟩ := hd
      revert d12 d13 d23
      generalize d.vertex.a1 = a1
      generalize d.vertex.a2 = a2
      generalize d.vertex.a3 = a3
      intro d12 d13 d23
      cases a1 <;> cases a2 <;> cases a3 <;> first | exact absurd rfl d12 | exact absurd rfl d13 | exact absurd rfl d23 |
        exact ⟨_, by decide, rfl⟩
    rcases d with ⟨f, n, v, fo⟩
    dsimp only at *
    rcases fo with _ | ⟨k, fd⟩
    · subst hfs
      rw [List.append_nil] at hf
      refine ⟨_, Advances.comments (by rw [hf]; exact A1),
        ⟨f, ⟨n, o, v.typeOf .X, v.typeOf .Y, v.typeOf .Z, total v.before, total v.mid1, total v.mid2, total v.after⟩, none⟩, ?_, ?_⟩
      · simp [plyHeaderLine, startsWith, List.isPrefixOf, afterVertices, plyHeaderRest, plyEndHeader, ho.2, Except.map]
      · exact ⟨rfl, rfl, ho.1, rfl, rfl, rfl, rfl, rfl, rfl, rfl, rfl⟩
    · obtain ⟨lf, fs', rfl, hlf, hfs'⟩ := hfs
      have A2 := A1.append (advances_faces (s := afterVertices f n v) ⟨rfl, rfl⟩ rfl rfl rfl rfl hlf hfs')
      rw [List.append_assoc] at A2
      refine ⟨_, Advances.comments (by rw [hf]; exact A2),
        ⟨f, ⟨n, o, v.typeOf .X, v.typeOf .Y, v.typeOf .Z, total v.before, total v.mid1, total v.mid2, total v.after⟩,
          some ⟨k, fd.tCount, fd.tIndex, total fd.before, total fd.after⟩⟩, ?_, ?_⟩
      · simp [plyHeaderLine, startsWith, List.isPrefixOf, afterVertices, afterFaces, plyHeaderRest, plyEndHeader, ho.2, Except.map]
      · exact ⟨rfl, rfl, ho.1, rfl, rfl, rfl, rfl, rfl, rfl, rfl, rfl⟩
  obtain ⟨hdr, h1, h2⟩ := hk
  refine ⟨hdr, ?_, h2⟩
  obtain ⟨cb, rfl, hcb⟩ := htb
  cases hcb with
  | cons hc hn =>
    rename_i c cs
    cases hn
    unfold plyLoadHeader
    have hlen : (ta ++ List.flatMap nl [c] ++ rest).length + 1 = ((ta ++ List.flatMap nl [c] ++ rest).length - pre.length) + 1 + pre.length := by
      simp only [List.length_append]; omega
    rw [hlen, List.append_assoc, headerLoop_advances hs' hta, plyHeaderLoop, List.flatMap_singleton, fetchLine_nl hc.1 hc.2]
    simp only [h1, List.length_append, List.length_cons, List.length_nil, Nat.zero_add]

end R3D

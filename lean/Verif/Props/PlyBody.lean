import Verif.Props.PlyHeader
/-!
The data of .ply files behind the header, for C59 - C62.
-/
namespace R3D
open Spec

/-- what the data of a .ply file says -/
abbrev Spec.PlySays := Says PlyPoint (LineInfo PlyError)

/-! ### specification: single vertices and faces -/

/-- the point with the coordinates `v1`, `v2`, `v3`, given in the order of the declaration -/
def Spec.VertexDecl.point (d : VertexDecl) (v1 v2 v3 : F64) : PlyPoint :=
  let on (a : PlyAxis) := if d.a1 = a then v1 else if d.a2 = a then v2 else v3
  ⟨on .X, on .Y, on .Z⟩

/-- the two orders that are neither x, y, z nor an exchange of two axes -/
def Spec.VertexDecl.Cyclic (d : VertexDecl) : Prop :=
  (d.a1 = .Y ∧ d.a2 = .Z ∧ d.a3 = .X) ∨ (d.a1 = .Z ∧ d.a2 = .X ∧ d.a3 = .Y)

/-- The point that is loaded. `yzx` and `zxy` are exchanged, which is what is wrong with the code (C61). -/
def Spec.VertexDecl.loaded (d : VertexDecl) (v1 v2 v3 : F64) : PlyPoint :=
  match d.a1, d.a2, d.a3 with
  | .Y, .Z, .X => ⟨v2, v3, v1⟩
  | .Z, .X, .Y => ⟨v3, v1, v2⟩
  | _, _, _ => d.point v1 v2 v3

/-- the line with the coordinates `v1`, `v2`, `v3` of a vertex, among the words of its other properties -/
def Spec.AsciiCoords (T : FloatText F64) (d : VertexDecl) (l : Bytes) (v1 v2 v3 : F64) : Prop :=
  ∃ wb w1 m1 w2 m2 w3 ws, WordsOf blank l (wb ++ w1 :: (m1 ++ w2 :: (m2 ++ w3 :: ws))) ∧
    wb.length = d.before.length ∧ m1.length = d.mid1.length ∧ m2.length = d.mid2.length ∧
    fromAscii T.parse w1 = some v1 ∧ fromAscii T.parse w2 = some v2 ∧ fromAscii T.parse w3 = some v3

/-- the bytes of a coordinate -/
def Spec.Coord (e : Endian) : VertexType → Bytes → F64 → Prop
  | .Float, c, v => c.length = 4 ∧ v = F64.ofBytes32 e c
  | .Double, c, v => c.length = 8 ∧ v = F64.ofBytes64 e c

/-- the size of a coordinate -/
def Spec.coordSize : VertexType → Nat
  | .Float => 4
  | .Double => 8

/-- The bytes with the coordinates `v1`, `v2`, `v3` of a vertex, of the types `t1`, `t2`, `t3`, among the bytes of its other
properties. -/
def Spec.BinaryCoords (e : Endian) (d : VertexDecl) (t1 t2 t3 : VertexType) (rec : Bytes) (v1 v2 v3 : F64) : Prop :=
  ∃ pb c1 p1 c2 p2 c3 pa, rec = pb ++ (c1 ++ (p1 ++ (c2 ++ (p2 ++ (c3 ++ pa))))) ∧
    pb.length = d.before.sum ∧ p1.length = d.mid1.sum ∧ p2.length = d.mid2.sum ∧ pa.length = d.after.sum ∧
    Coord e t1 c1 v1 ∧ Coord e t2 c2 v2 ∧ Coord e t3 c3 v3

/-- the size of a vertex -/
def Spec.vertexSize (d : VertexDecl) (t1 t2 t3 : VertexType) : Nat :=
  d.before.sum + coordSize t1 + d.mid1.sum + coordSize t2 + d.mid2.sum + coordSize t3 + d.after.sum

/-- The loader reads the first coordinate with the type of x, the second with the type of y and the third with the type of z
(C61). -/
def Spec.LoadedCoords (e : Endian) (d : VertexDecl) (rec : Bytes) (v1 v2 v3 : F64) : Prop :=
  BinaryCoords e d (d.typeOf .X) (d.typeOf .Y) (d.typeOf .Z) rec v1 v2 v3

/-- the size of a number of a list, and whether it has a sign -/
def Spec.intSize : FaceType → Nat × Bool
  | .Char => (1, true)
  | .UChar => (1, false)
  | .Short => (2, true)
  | .UShort => (2, false)
  | .Int => (4, true)
  | .UInt => (4, false)

/-- the number in `c`; negative ones become large -/
def Spec.intValue (e : Endian) (t : FaceType) (c : Bytes) : Nat :=
  if (intSize t).2 = true ∧ 256 ^ c.length ≤ 2 * value e c then 2 ^ 64 + value e c - 256 ^ c.length else value e c

/-- the bytes of a triangle -/
def Spec.FaceRecord (e : Endian) (d : FaceDecl) (rec : Bytes) (a b c : Nat) : Prop :=
  ∃ pb n ca cb cc pa, rec = pb ++ (n ++ (ca ++ (cb ++ (cc ++ pa)))) ∧ pb.length = d.before.sum ∧ pa.length = d.after.sum ∧
    n.length = (intSize d.tCount).1 ∧ ca.length = (intSize d.tIndex).1 ∧ cb.length = (intSize d.tIndex).1 ∧
    cc.length = (intSize d.tIndex).1 ∧ intValue e d.tCount n = 3 ∧
    intValue e d.tIndex ca = a ∧ intValue e d.tIndex cb = b ∧ intValue e d.tIndex cc = c

/-! ### specification: the data -/

/-- `n` faces in the lines `ls` below the `i`-th. `missing` is what is wrong with it (C62). -/
inductive Spec.FaceLines : Nat → Nat → List Bytes → List PlySays → Prop
  | none {i : Nat} {ls : List Bytes} : FaceLines i 0 ls []
  | missing {i n : Nat} : FaceLines i (n + 1) [] []
  | face {i n a b c : Nat} {l : Bytes} {ls : List Bytes} {ks : List PlySays} (h : TriangleWords l a b c) (hs : FaceLines (i + 1) n ls ks) :
      FaceLines i (n + 1) (l :: ls) (.face a b c :: ks)
  | bad {i n : Nat} {l : Bytes} {ls : List Bytes} (h : ¬∃ a b c, TriangleWords l a b c) :
      FaceLines i (n + 1) (l :: ls) [.malformed (.line (i + 1) l .FaceStructure)]

/-- `n` vertices in the lines `ls` below the `i`-th, and then what `F` says. `missingOne` is what is wrong with it (C62): the end
of the data is reported only if at least two vertices are missing. -/
inductive Spec.VertexLines (V : Bytes → PlyPoint → Prop) (F : Nat → List Bytes → List PlySays → Prop) :
    Nat → Nat → List Bytes → List PlySays → Prop
  | none {i : Nat} {ls : List Bytes} {ks : List PlySays} (h : F i ls ks) : VertexLines V F i 0 ls ks
  | vertex {i n : Nat} {l : Bytes} {ls : List Bytes} {p : PlyPoint} {ks : List PlySays} (h : V l p) (hs : VertexLines V F (i + 1) n ls ks) :
      VertexLines V F i (n + 1) (l :: ls) (.vertex p :: ks)
  | bad {i n : Nat} {l : Bytes} {ls : List Bytes} (h : ¬∃ p, V l p) :
      VertexLines V F i (n + 1) (l :: ls) [.malformed (.line (i + 1) l .InvalidVertex)]
  | missing {i n : Nat} : VertexLines V F i (n + 2) [] [.malformed (.none .LoadVertexCountIncorrect)]
  | missingOne {i : Nat} {ks : List PlySays} (h : F i [] ks) : VertexLines V F i 1 [] ks

/-- `n` faces in the bytes -/
inductive Spec.FaceRecords (e : Endian) (d : FaceDecl) : Nat → Bytes → List PlySays → Prop
  | none {s : Bytes} : FaceRecords e d 0 s []
  | face {n a b c : Nat} {rec rest : Bytes} {ks : List PlySays} (h : FaceRecord e d rec a b c) (hs : FaceRecords e d n rest ks) :
      FaceRecords e d (n + 1) (rec ++ rest) (.face a b c :: ks)
  | notThree {n : Nat} {pb c rest : Bytes} (h1 : pb.length = d.before.sum) (h2 : c.length = (intSize d.tCount).1)
      (h3 : intValue e d.tCount c ≠ 3) : FaceRecords e d (n + 1) (pb ++ (c ++ rest)) [.malformed (.none .FaceStructure)]
  | short {n : Nat} {s : Bytes} (h : s.length < d.before.sum + (intSize d.tCount).1) :
      FaceRecords e d (n + 1) s [.malformed (.none .AccessFile)]
  | shortIndices {n : Nat} {pb c rest : Bytes} (h1 : pb.length = d.before.sum) (h2 : c.length = (intSize d.tCount).1)
      (h3 : intValue e d.tCount c = 3) (h4 : rest.length < 3 * (intSize d.tIndex).1 + d.after.sum) :
      FaceRecords e d (n + 1) (pb ++ (c ++ rest)) [.malformed (.none .AccessFile)]

/-- `n` vertices of `size` bytes, and then what `F` says -/
inductive Spec.VertexRecords (V : Bytes → PlyPoint → Prop) (size : Nat) (F : Bytes → List PlySays → Prop) : Nat → Bytes → List PlySays → Prop
  | none {s : Bytes} {ks : List PlySays} (h : F s ks) : VertexRecords V size F 0 s ks
  | vertex {n : Nat} {rec rest : Bytes} {p : PlyPoint} {ks : List PlySays} (h : V rec p) (hs : VertexRecords V size F n rest ks) :
      VertexRecords V size F (n + 1) (rec ++ rest) (.vertex p :: ks)
  | short {n : Nat} {s : Bytes} (h : s.length < size) : VertexRecords V size F (n + 1) s [.malformed (.none .AccessFile)]

/-- the vertex a line is loaded as -/
def Spec.AsciiLoaded (T : FloatText F64) (d : VertexDecl) (l : Bytes) (p : PlyPoint) : Prop :=
  ∃ v1 v2 v3, AsciiCoords T d l v1 v2 v3 ∧ p = d.loaded v1 v2 v3

/-- the vertex the bytes are loaded as -/
def Spec.BinaryLoaded (e : Endian) (d : VertexDecl) (rec : Bytes) (p : PlyPoint) : Prop :=
  ∃ v1 v2 v3, LoadedCoords e d rec v1 v2 v3 ∧ p = d.loaded v1 v2 v3

/-- The data `body` behind a header of `k` lines with the declaration `d`; `faces` tells whether the faces are loaded, too. -/
def Spec.PlyData (T : FloatText F64) (d : PlyDecl) (faces : Option (Nat × FaceDecl)) (k : Nat) (body : Bytes) (ks : List PlySays) : Prop :=
  match d.format with
  | .Ascii => VertexLines (AsciiLoaded T d.vertex) (fun i ls ks => match faces with
      | none => ks = []
      | some (n, _) => FaceLines i n ls ks) k d.nVertices (lines body) ks
  | .Binary e => VertexRecords (BinaryLoaded e d.vertex) (vertexSize d.vertex (d.vertex.typeOf .X) (d.vertex.typeOf .Y) (d.vertex.typeOf .Z))
      (fun s ks => match faces with
        | none => ks = []
        | some (n, fd) => FaceRecords e fd n s ks) d.nVertices body ks

/-! ### single vertices and faces -/

theorem loaded_of {d : VertexDecl} {o : VertexOrder} (h : (d.a1, d.a2, d.a3, o) ∈ orders) (v1 v2 v3 : F64) :
    pointWithOrder v1 v2 v3 o = d.loaded v1 v2 v3 := by
  rcases d with ⟨b, a1, t1, m1, a2, t2, m2, a3, t3, af⟩
  simp only [orders, List.mem_cons, Prod.mk.injEq, List.not_mem_nil, or_false] at h
  rcases h with h | h | h | h | h | h <;> obtain ⟨rfl, rfl, rfl, rfl⟩ := h <;> rfl

/-- the declared vertex data as the loader holds them -/
def KnownVertex (d : VertexDecl) (h : PlyVertexData) : Prop :=
  (d.a1, d.a2, d.a3, h.order) ∈ orders ∧ h.first = d.typeOf .X ∧ h.snd = d.typeOf .Y ∧ h.third = d.typeOf .Z ∧
  h.before = total d.before ∧ h.betweenFirstSnd = total d.mid1 ∧ h.betweenSndThird = total d.mid2 ∧ h.after = total d.after

theorem drop_cons_of {ws rest : List Bytes} {w : Bytes} {k : Nat} (h : ws.drop k = w :: rest) : ∃ pre, ws = pre ++ w :: rest ∧ pre.length = k := by
  refine ⟨ws.take k, by rw [← h, List.take_append_drop], ?_⟩
  rw [List.length_take]
  have : (ws.drop k).length ≠ 0 := by rw [h]; simp
  rw [List.length_drop] at this
  omega

theorem nthNum_zero {β : Type} {parse : Bytes → Option β} {ws : List Bytes} {v : β} : nthNum parse ws 0 = some v ↔
    ∃ w rest, ws = w :: rest ∧ fromAscii parse w = some v := by
  cases ws with
  | nil => simp [nthNum]
  | cons w ws => simp [nthNum]

theorem asciiVertex_ok {T : FloatText F64} {d : VertexDecl} {h : PlyVertexData} (hk : KnownVertex d h) {l : Bytes} {p : PlyPoint} :
    plyAsciiVertex T h l = .ok p ↔ AsciiLoaded T d l p := by
  obtain ⟨ho, -, -, -, hb, hm1, hm2, -⟩ := hk
  obtain ⟨ws, hw⟩ := wordsOf_exists blank l
  simp only [plyAsciiVertex, toWords_iff.2 hw, hb, hm1, hm2, total, (c72_skip _).1]
  constructor
  · intro hp
    cases h1 : nthNum T.parse (ws.drop d.before.length) 0 with
    | none => rw [h1] at hp; cases hp
    | some v1 =>
      rw [h1] at hp
      dsimp only at hp
      obtain ⟨w1, r1, e1, p1⟩ := nthNum_zero.1 h1
      rw [e1, List.tail_cons] at hp
      cases h2 : nthNum T.parse (r1.drop d.mid1.length) 0 with
      | none => rw [h2] at hp; cases hp
      | some v2 =>
        rw [h2] at hp
        dsimp only at hp
        obtain ⟨w2, r2, e2, p2⟩ := nthNum_zero.1 h2
        rw [e2, List.tail_cons] at hp
        cases h3 : nthNum T.parse (r2.drop d.mid2.length) 0 with
        | none => rw [h3] at hp; cases hp
        | some v3 =>
          rw [h3] at hp
          dsimp only at hp
          obtain ⟨w3, r3, e3, p3⟩ := nthNum_zero.1 h3
          cases hp
          obtain ⟨wb, rfl, l1⟩ := drop_cons_of e1
          obtain ⟨wm1, rfl, l2⟩ := drop_cons_of e2
          obtain ⟨wm2, rfl, l3⟩ := drop_cons_of e3
          exact ⟨v1, v2, v3, ⟨wb, w1, wm1, w2, wm2, w3, r3, hw, l1, l2, l3, p1, p2, p3⟩, loaded_of ho v1 v2 v3⟩
  · rintro ⟨v1, v2, v3, ⟨wb, w1, wm1, w2, wm2, w3, r3, hw', l1, l2, l3, p1, p2, p3⟩, rfl⟩
    rw [wordsOf_unique hw hw']
    rw [List.drop_left' l1]
    simp only [nthNum, List.getElem?_cons_zero, Option.bind_some, p1, List.tail_cons]
    rw [List.drop_left' l2]
    simp only [List.getElem?_cons_zero, Option.bind_some, p2, List.tail_cons]
    rw [List.drop_left' l3]
    simp only [List.getElem?_cons_zero, Option.bind_some, p3]
    rw [loaded_of ho]

theorem asciiVertex_error {T : FloatText F64} {h : PlyVertexData} {l : Bytes} {e : PlyError} (he : plyAsciiVertex T h l = .error e) :
    e = .InvalidVertex := by
  simp only [plyAsciiVertex] at he
  split at he
  · cases he; rfl
  split at he
  · cases he; rfl
  split at he
  · cases he; rfl
  · cases he

theorem indexLine_iff {l : Bytes} {a b c : Nat} : plyIndexLine l = some (a, b, c) ↔ TriangleWords l a b c := by
  obtain ⟨ws, hw⟩ := wordsOf_exists blank l
  simp only [plyIndexLine, toWords_iff.2 hw]
  constructor
  · intro h
    rcases ws with _ | ⟨w, ws⟩
    · cases h
    simp only [List.getElem?_cons_zero] at h
    by_cases h3 : w = b!"3"
    · subst h3
      rw [if_neg (by simp)] at h
      cases h1 : nthNum parseNat (b!"3" :: ws) 1 with
      | none => rw [h1] at h; cases h
      | some x =>
      cases h2 : nthNum parseNat (b!"3" :: ws) 2 with
      | none => rw [h1, h2] at h; cases h
      | some y =>
      cases h3 : nthNum parseNat (b!"3" :: ws) 3 with
      | none => rw [h1, h2, h3] at h; cases h
      | some z =>
      rw [h1, h2, h3] at h
      cases h
      rcases ws with _ | ⟨wa, _ | ⟨wb, _ | ⟨wc, ws⟩⟩⟩
      · cases h1
      · cases h2
      · cases h3
      · exact ⟨wa, wb, wc, ws, hw, h1, h2, h3⟩
    · rw [if_pos h3] at h; cases h
  · rintro ⟨wa, wb, wc, ws', hw', h1, h2, h3⟩
    rw [wordsOf_unique hw hw']
    simp only [nthNum, List.getElem?_cons_succ, List.getElem?_cons_zero, Option.bind_some, h1, h2, h3]
    rw [if_neg (by simp)]

theorem skipBytes_of {pb : Bytes} {n : Nat} (h : pb.length = n) (s : Bytes) : skipBytes n (pb ++ s) = some s := by
  rw [(c72_skip n).2, if_pos (by simp; omega), List.drop_left' h]

theorem skipBytes_none {n : Nat} {s : Bytes} (h : s.length < n) : skipBytes n s = none := by
  rw [(c72_skip n).2, if_neg (by omega)]

theorem skipBytes_some {n : Nat} {s r : Bytes} (h : skipBytes n s = some r) : ∃ pb, s = pb ++ r ∧ pb.length = n := by
  rw [(c72_skip n).2] at h
  by_cases hn : n ≤ s.length
  · rw [if_pos hn] at h
    cases h
    exact ⟨s.take n, by simp, by simpa using hn⟩
  · rw [if_neg hn] at h; cases h

theorem readVertexType_iff {e : Endian} {t : VertexType} {s r : Bytes} {v : F64} :
    readVertexType e t s = some (v, r) ↔ ∃ c, s = c ++ r ∧ Coord e t c v := by
  cases t with
  | Float =>
    simp only [readVertexType, readF32, Coord]
    constructor
    · intro h
      cases hx : readExact 4 s with
      | none => rw [hx] at h; cases h
      | some x =>
        obtain ⟨bs, rest⟩ := x
        rw [hx] at h
        cases h
        obtain ⟨rfl, h2⟩ := readExact_some.1 hx
        exact ⟨bs, rfl, h2, rfl⟩
    · rintro ⟨c, rfl, hc, rfl⟩
      rw [readExact_of r hc]
  | Double =>
    simp only [readVertexType, readF64, Coord]
    constructor
    · intro h
      cases hx : readExact 8 s with
      | none => rw [hx] at h; cases h
      | some x =>
        obtain ⟨bs, rest⟩ := x
        rw [hx] at h
        cases h
        obtain ⟨rfl, h2⟩ := readExact_some.1 hx
        exact ⟨bs, rfl, h2, rfl⟩
    · rintro ⟨c, rfl, hc, rfl⟩
      rw [readExact_of r hc]

theorem coord_length {e : Endian} {t : VertexType} {c : Bytes} {v : F64} (h : Coord e t c v) : c.length = coordSize t := by
  cases t <;> exact h.1

theorem coord_exists (e : Endian) (t : VertexType) {s : Bytes} (h : coordSize t ≤ s.length) : ∃ c r v, s = c ++ r ∧ Coord e t c v := by
  refine ⟨s.take (coordSize t), s.drop (coordSize t), ?_⟩
  cases t
  · exact ⟨_, by simp, by simpa [coordSize] using h, rfl⟩
  · exact ⟨_, by simp, by simpa [coordSize] using h, rfl⟩

theorem binaryCoords_length {e : Endian} {d : VertexDecl} {t1 t2 t3 : VertexType} {rec : Bytes} {v1 v2 v3 : F64}
    (h : BinaryCoords e d t1 t2 t3 rec v1 v2 v3) : rec.length = vertexSize d t1 t2 t3 := by
  obtain ⟨pb, c1, p1, c2, p2, c3, pa, rfl, h1, h2, h3, h4, h5, h6, h7⟩ := h
  simp only [List.length_append, h1, h2, h3, h4, coord_length h5, coord_length h6, coord_length h7, vertexSize]
  omega

theorem binaryVertex_of {e : Endian} {d : VertexDecl} {h : PlyVertexData} (hk : KnownVertex d h) {rec : Bytes} {p : PlyPoint}
    (hr : BinaryLoaded e d rec p) (rest : Bytes) : plyBinaryVertex e h (rec ++ rest) = some (p, rest) := by
  obtain ⟨ho, k1, k2, k3, hb, hm1, hm2, ha⟩ := hk
  obtain ⟨v1, v2, v3, ⟨pb, c1, p1, c2, p2, c3, pa, rfl, l1, l2, l3, l4, q1, q2, q3⟩, rfl⟩ := hr
  simp only [plyBinaryVertex, k1, k2, k3, hb, hm1, hm2, ha, total, List.append_assoc, Option.bind_eq_bind]
  rw [skipBytes_of l1, Option.bind_some, readVertexType_iff.2 ⟨c1, rfl, q1⟩, Option.bind_some]
  dsimp only
  rw [skipBytes_of l2, Option.bind_some, readVertexType_iff.2 ⟨c2, rfl, q2⟩, Option.bind_some]
  dsimp only
  rw [skipBytes_of l3, Option.bind_some, readVertexType_iff.2 ⟨c3, rfl, q3⟩, Option.bind_some]
  dsimp only
  rw [skipBytes_of l4, Option.bind_some, loaded_of ho]
  rfl

theorem binaryVertex_some {e : Endian} {d : VertexDecl} {h : PlyVertexData} (hk : KnownVertex d h) {s rest : Bytes} {p : PlyPoint}
    (hr : plyBinaryVertex e h s = some (p, rest)) : ∃ rec, s = rec ++ rest ∧ BinaryLoaded e d rec p := by
  obtain ⟨ho, k1, k2, k3, hb, hm1, hm2, ha⟩ := hk
  simp only [plyBinaryVertex, k1, k2, k3, hb, hm1, hm2, ha, total, Option.bind_eq_bind, Option.bind_eq_some_iff] at hr
  obtain ⟨s1, h1, ⟨v1, s2⟩, h2, s3, h3, ⟨v2, s4⟩, h4, s5, h5, ⟨v3, s6⟩, h6, s7, h7, hp⟩ := hr
  simp only [Option.pure_def, Option.some.injEq, Prod.mk.injEq] at hp
  obtain ⟨rfl, rfl⟩ := hp
  obtain ⟨pb, rfl, l1⟩ := skipBytes_some h1
  obtain ⟨c1, rfl, q1⟩ := readVertexType_iff.1 h2
  obtain ⟨p1, rfl, l2⟩ := skipBytes_some h3
  obtain ⟨c2, rfl, q2⟩ := readVertexType_iff.1 h4
  obtain ⟨p2, rfl, l3⟩ := skipBytes_some h5
  obtain ⟨c3, rfl, q3⟩ := readVertexType_iff.1 h6
  obtain ⟨pa, rfl, l4⟩ := skipBytes_some h7
  exact ⟨pb ++ (c1 ++ (p1 ++ (c2 ++ (p2 ++ (c3 ++ pa))))), by simp, v1, v2, v3, ⟨pb, c1, p1, c2, p2, c3, pa, rfl, l1, l2, l3, l4, q1, q2, q3⟩,
    loaded_of ho _ _ _⟩

theorem binaryLoaded_exists (e : Endian) (d : VertexDecl) {s : Bytes}
    (h : vertexSize d (d.typeOf .X) (d.typeOf .Y) (d.typeOf .Z) ≤ s.length) : ∃ rec rest p, s = rec ++ rest ∧ BinaryLoaded e d rec p := by
  unfold vertexSize at h
  have split : ∀ (n : Nat) {s : Bytes}, n ≤ s.length → ∃ a b, s = a ++ b ∧ a.length = n ∧ b.length = s.length - n := fun n s h =>
    ⟨s.take n, s.drop n, by simp, by simpa using h, by simp⟩
  obtain ⟨pb, s1, rfl, l1, -⟩ := split d.before.sum (s := s) (by omega)
  simp only [List.length_append] at h
  obtain ⟨c1, s2, v1, rfl, q1⟩ := coord_exists e (d.typeOf .X) (s := s1) (by omega)
  have := coord_length q1
  simp only [List.length_append] at h
  obtain ⟨p1, s3, rfl, l2, -⟩ := split d.mid1.sum (s := s2) (by omega)
  simp only [List.length_append] at h
  obtain ⟨c2, s4, v2, rfl, q2⟩ := coord_exists e (d.typeOf .Y) (s := s3) (by omega)
  have := coord_length q2
  simp only [List.length_append] at h
  obtain ⟨p2, s5, rfl, l3, -⟩ := split d.mid2.sum (s := s4) (by omega)
  simp only [List.length_append] at h
  obtain ⟨c3, s6, v3, rfl, q3⟩ := coord_exists e (d.typeOf .Z) (s := s5) (by omega)
  have := coord_length q3
  simp only [List.length_append] at h
  obtain ⟨pa, s7, rfl, l4, -⟩ := split d.after.sum (s := s6) (by omega)
  exact ⟨pb ++ (c1 ++ (p1 ++ (c2 ++ (p2 ++ (c3 ++ pa))))), s7, _, by simp, v1, v2, v3,
    ⟨pb, c1, p1, c2, p2, c3, pa, rfl, l1, l2, l3, l4, q1, q2, q3⟩, rfl⟩

theorem binaryVertex_none {e : Endian} {d : VertexDecl} {h : PlyVertexData} (hk : KnownVertex d h) {s : Bytes}
    (hs : s.length < vertexSize d (d.typeOf .X) (d.typeOf .Y) (d.typeOf .Z)) : plyBinaryVertex e h s = none := by
  cases hr : plyBinaryVertex e h s with
  | none => rfl
  | some x =>
    obtain ⟨p, rest⟩ := x
    obtain ⟨rec, rfl, v1, v2, v3, hc, -⟩ := binaryVertex_some hk hr
    have := binaryCoords_length hc
    rw [List.length_append] at hs
    omega

theorem usizeOfInt_of (e : Endian) (c : Bytes) (h : c.length ≤ 4) :
    usizeOfInt (intOfBytes e c) = if 256 ^ c.length ≤ 2 * value e c then 2 ^ 64 + value e c - 256 ^ c.length else value e c := by
  have hv := value_lt e c
  have hl : 256 ^ c.length ≤ 256 ^ 4 := Nat.pow_le_pow_right (by decide) h
  simp only [usizeOfInt, intOfBytes, natOfBytes_eq]
  have hz : ((256 : Int) ^ c.length) = ((256 ^ c.length : Nat) : Int) := by push_cast; rfl
  generalize value e c = v at *
  generalize 256 ^ c.length = w at *
  by_cases hc : 2 * v < w
  · rw [if_pos hc, if_neg (by omega)]
    rw [Int.emod_eq_of_lt (by omega) (by omega)]
    omega
  · rw [if_neg hc, if_pos (by omega)]
    rw [hz]
    have : ((v : Int) - (w : Int)) % 2 ^ 64 = v - w + 2 ^ 64 := by omega
    rw [this]
    omega

theorem readFaceType_iff {e : Endian} {t : FaceType} {s r : Bytes} {n : Nat} :
    readFaceType e t s = some (n, r) ↔ ∃ c, s = c ++ r ∧ c.length = (intSize t).1 ∧ intValue e t c = n := by
  have hu : ∀ w, readNat e w s = some (n, r) ↔ ∃ c, s = c ++ r ∧ c.length = w ∧ value e c = n := by
    intro w
    simp only [readNat]
    constructor
    · intro h
      cases hx : readExact w s with
      | none => rw [hx] at h; cases h
      | some x =>
        obtain ⟨bs, rest⟩ := x
        rw [hx] at h
        cases h
        obtain ⟨rfl, h2⟩ := readExact_some.1 hx
        exact ⟨bs, rfl, h2, (natOfBytes_eq e bs).symm⟩
    · rintro ⟨c, rfl, hc, rfl⟩
      rw [readExact_of r hc, ← natOfBytes_eq]
  have hi : ∀ w ≤ 4, ((readInt e w s).map fun r => (usizeOfInt r.1, r.2)) = some (n, r) ↔ ∃ c, s = c ++ r ∧ c.length = w ∧
      (if 256 ^ c.length ≤ 2 * value e c then 2 ^ 64 + value e c - 256 ^ c.length else value e c) = n := by
    intro w hw
    simp only [readInt]
    constructor
    · intro h
      cases hx : readExact w s with
      | none => rw [hx] at h; cases h
      | some x =>
        obtain ⟨bs, rest⟩ := x
        rw [hx] at h
        cases h
        obtain ⟨rfl, h2⟩ := readExact_some.1 hx
        exact ⟨bs, rfl, h2, (usizeOfInt_of e bs (by omega)).symm⟩
    · rintro ⟨c, rfl, hc, rfl⟩
      rw [readExact_of r hc]
      dsimp only [Option.map]
      rw [usizeOfInt_of e c (by omega)]
  cases t <;> simp only [readFaceType, intSize, intValue, true_and, false_and, if_false, Bool.false_eq_true]
  · exact hi 1 (by decide)
  · exact hu 1
  · exact hi 2 (by decide)
  · exact hu 2
  · exact hi 4 (by decide)
  · exact hu 4

theorem readFaceType_none {e : Endian} {t : FaceType} {s : Bytes} (h : s.length < (intSize t).1) : readFaceType e t s = none := by
  cases hr : readFaceType e t s with
  | none => rfl
  | some x =>
    obtain ⟨n, r⟩ := x
    obtain ⟨c, rfl, hc, -⟩ := readFaceType_iff.1 hr
    rw [List.length_append] at h
    omega

theorem binaryFace_of {e : Endian} {d : FaceDecl} {h : PlyFaceData} (h1 : h.countType = d.tCount) (h2 : h.indexType = d.tIndex)
    (h3 : h.before = total d.before) (h4 : h.after = total d.after) {rec : Bytes} {a b c : Nat} (hr : FaceRecord e d rec a b c) (rest : Bytes) :
    plyBinaryFace e h (rec ++ rest) = (.ok (a, b, c), rest) := by
  obtain ⟨pb, n, ca, cb, cc, pa, rfl, l1, l2, l3, l4, l5, l6, hn, ha, hb, hc⟩ := hr
  simp only [plyBinaryFace, h1, h2, h3, h4, total, List.append_assoc, Option.bind_eq_bind]
  rw [skipBytes_of l1, Option.bind_some, readFaceType_iff.2 ⟨n, rfl, l3, hn⟩]
  dsimp only
  rw [if_neg (by decide), readFaceType_iff.2 ⟨ca, rfl, l4, ha⟩, Option.bind_some]
  dsimp only
  rw [readFaceType_iff.2 ⟨cb, rfl, l5, hb⟩, Option.bind_some]
  dsimp only
  rw [readFaceType_iff.2 ⟨cc, rfl, l6, hc⟩, Option.bind_some]
  dsimp only
  rw [skipBytes_of l2]
  rfl

theorem binaryFace_notThree {e : Endian} {d : FaceDecl} {h : PlyFaceData} (h1 : h.countType = d.tCount) (h3 : h.before = total d.before)
    {pb c : Bytes} (l1 : pb.length = d.before.sum) (l2 : c.length = (intSize d.tCount).1) (hn : intValue e d.tCount c ≠ 3) (rest : Bytes) :
    plyBinaryFace e h (pb ++ (c ++ rest)) = (.error .FaceStructure, rest) := by
  simp only [plyBinaryFace, h1, h3, total, Option.bind_eq_bind]
  rw [skipBytes_of l1, Option.bind_some, readFaceType_iff.2 ⟨c, rfl, l2, rfl⟩]
  dsimp only
  rw [if_pos hn]

theorem binaryFace_short {e : Endian} {d : FaceDecl} {h : PlyFaceData} (h1 : h.countType = d.tCount) (h3 : h.before = total d.before)
    {s : Bytes} (hs : s.length < d.before.sum + (intSize d.tCount).1) : plyBinaryFace e h s = (.error .AccessFile, []) := by
  simp only [plyBinaryFace, h1, h3, total, Option.bind_eq_bind]
  cases hx : (skipBytes d.before.sum s).bind fun s => readFaceType e d.tCount s with
  | none => rfl
  | some x =>
    obtain ⟨s', e1, e2⟩ := Option.bind_eq_some_iff.1 hx
    obtain ⟨pb, rfl, l1⟩ := skipBytes_some e1
    obtain ⟨c, rfl, l2, -⟩ := readFaceType_iff.1 (show readFaceType e d.tCount s' = some (x.1, x.2) from e2)
    simp only [List.length_append] at hs
    omega

theorem binaryFace_shortIndices {e : Endian} {d : FaceDecl} {h : PlyFaceData} (h1 : h.countType = d.tCount) (h2 : h.indexType = d.tIndex)
    (h3 : h.before = total d.before) (h4 : h.after = total d.after) {pb c rest : Bytes} (l1 : pb.length = d.before.sum)
    (l2 : c.length = (intSize d.tCount).1) (hn : intValue e d.tCount c = 3) (hs : rest.length < 3 * (intSize d.tIndex).1 + d.after.sum) :
    plyBinaryFace e h (pb ++ (c ++ rest)) = (.error .AccessFile, []) := by
  simp only [plyBinaryFace, h1, h2, h3, h4, total, Option.bind_eq_bind]
  rw [skipBytes_of l1, Option.bind_some, readFaceType_iff.2 ⟨c, rfl, l2, hn⟩]
  dsimp only
  rw [if_neg (by decide)]
  split
  · rfl
  · rename_i f r hx
    exfalso
    simp only [Option.bind_eq_some_iff] at hx
    obtain ⟨⟨a, s1⟩, e1, ⟨b, s2⟩, e2, ⟨c', s3⟩, e3, s4, e4, -⟩ := hx
    obtain ⟨ca, rfl, q1, -⟩ := readFaceType_iff.1 e1
    obtain ⟨cb, rfl, q2, -⟩ := readFaceType_iff.1 e2
    obtain ⟨cc, rfl, q3, -⟩ := readFaceType_iff.1 e3
    obtain ⟨pa, rfl, q4⟩ := skipBytes_some e4
    simp only [List.length_append] at hs
    omega

/-! ### every data means something -/

theorem faceLines_exists (i n : Nat) (ls : List Bytes) : ∃ ks, FaceLines i n ls ks := by
  induction ls generalizing i n with
  | nil => cases n with
    | zero => exact ⟨_, .none⟩
    | succ n => exact ⟨_, .missing⟩
  | cons l ls ih =>
    cases n with
    | zero => exact ⟨_, .none⟩
    | succ n =>
      by_cases h : ∃ a b c, TriangleWords l a b c
      · obtain ⟨a, b, c, h⟩ := h
        obtain ⟨ks, hs⟩ := ih (i + 1) n
        exact ⟨_, .face h hs⟩
      · exact ⟨_, .bad h⟩

theorem vertexLines_exists {V : Bytes → PlyPoint → Prop} {F : Nat → List Bytes → List PlySays → Prop} (hF : ∀ i ls, ∃ ks, F i ls ks)
    (i n : Nat) (ls : List Bytes) : ∃ ks, VertexLines V F i n ls ks := by
  induction ls generalizing i n with
  | nil => match n with
    | 0 => obtain ⟨ks, h⟩ := hF i []; exact ⟨_, .none h⟩
    | 1 => obtain ⟨ks, h⟩ := hF i []; exact ⟨_, .missingOne h⟩
    | n + 2 => exact ⟨_, .missing⟩
  | cons l ls ih =>
    cases n with
    | zero => obtain ⟨ks, h⟩ := hF i (l :: ls); exact ⟨_, .none h⟩
    | succ n =>
      by_cases h : ∃ p, V l p
      · obtain ⟨p, h⟩ := h
        obtain ⟨ks, hs⟩ := ih (i + 1) n
        exact ⟨_, .vertex h hs⟩
      · exact ⟨_, .bad h⟩

theorem split_at {n : Nat} {s : Bytes} (h : n ≤ s.length) : ∃ a b, s = a ++ b ∧ a.length = n :=
  ⟨s.take n, s.drop n, by simp, by simpa using h⟩

theorem faceRecords_exists (e : Endian) (d : FaceDecl) (n : Nat) (s : Bytes) : ∃ ks, FaceRecords e d n s ks := by
  induction n generalizing s with
  | zero => exact ⟨_, .none⟩
  | succ n ih =>
    by_cases h : s.length < d.before.sum + (intSize d.tCount).1
    · exact ⟨_, .short h⟩
    obtain ⟨pb, s1, rfl, l1⟩ := split_at (n := d.before.sum) (s := s) (by omega)
    rw [List.length_append] at h
    obtain ⟨c, s2, rfl, l2⟩ := split_at (n := (intSize d.tCount).1) (s := s1) (by omega)
    by_cases h3 : intValue e d.tCount c = 3
    · by_cases h4 : s2.length < 3 * (intSize d.tIndex).1 + d.after.sum
      · exact ⟨_, .shortIndices l1 l2 h3 h4⟩
      · obtain ⟨ca, s3, rfl, l3⟩ := split_at (n := (intSize d.tIndex).1) (s := s2) (by omega)
        rw [List.length_append] at h4
        obtain ⟨cb, s4, rfl, l4⟩ := split_at (n := (intSize d.tIndex).1) (s := s3) (by omega)
        rw [List.length_append] at h4
        obtain ⟨cc, s5, rfl, l5⟩ := split_at (n := (intSize d.tIndex).1) (s := s4) (by omega)
        rw [List.length_append] at h4
        obtain ⟨pa, s6, rfl, l6⟩ := split_at (n := d.after.sum) (s := s5) (by omega)
        obtain ⟨ks, hs⟩ := ih s6
        have := FaceRecords.face (e := e) (d := d) (rec := pb ++ (c ++ (ca ++ (cb ++ (cc ++ pa)))))
          ⟨pb, c, ca, cb, cc, pa, rfl, l1, l6, l2, l3, l4, l5, h3, rfl, rfl, rfl⟩ hs
        exact ⟨_, by simpa only [List.append_assoc] using this⟩
    · exact ⟨_, .notThree l1 l2 h3⟩

theorem vertexRecords_exists {V : Bytes → PlyPoint → Prop} {size : Nat} {F : Bytes → List PlySays → Prop} (hF : ∀ s, ∃ ks, F s ks)
    (hV : ∀ s : Bytes, size ≤ s.length → ∃ rec rest p, s = rec ++ rest ∧ V rec p) (n : Nat) (s : Bytes) :
    ∃ ks, VertexRecords V size F n s ks := by
  induction n generalizing s with
  | zero => obtain ⟨ks, h⟩ := hF s; exact ⟨_, .none h⟩
  | succ n ih =>
    by_cases h : s.length < size
    · exact ⟨_, .short h⟩
    · obtain ⟨rec, rest, p, rfl, hp⟩ := hV s (by omega)
      obtain ⟨ks, hs⟩ := ih rest
      exact ⟨_, .vertex hp hs⟩

theorem plyData_exists (T : FloatText F64) (d : PlyDecl) (faces : Option (Nat × FaceDecl)) (k : Nat) (body : Bytes) :
    ∃ ks, PlyData T d faces k body ks := by
  unfold PlyData
  cases d.format with
  | Ascii =>
    refine vertexLines_exists (fun i ls => ?_) _ _ _
    rcases faces with _ | ⟨n, fd⟩
    · exact ⟨[], rfl⟩
    · exact faceLines_exists _ _ _
  | Binary e =>
    refine vertexRecords_exists (fun s => ?_) (fun s hs => binaryLoaded_exists e d.vertex hs) _ _
    rcases faces with _ | ⟨n, fd⟩
    · exact ⟨[], rfl⟩
    · exact faceRecords_exists _ _ _ _

/-! ### there are no more data than bytes -/

theorem faceLines_length {i n : Nat} {ls : List Bytes} {ks : List PlySays} (h : FaceLines i n ls ks) : ks.length ≤ ls.length := by
  induction h with
  | none => simp
  | missing => simp
  | face _ _ ih => simpa using ih
  | bad => simp

theorem vertexLines_length {V : Bytes → PlyPoint → Prop} {F : Nat → List Bytes → List PlySays → Prop}
    (hF : ∀ i ls ks, F i ls ks → ks.length ≤ ls.length) {i n : Nat} {ls : List Bytes} {ks : List PlySays} (h : VertexLines V F i n ls ks) :
    ks.length ≤ ls.length + 1 := by
  induction h with
  | none h => have := hF _ _ _ h; omega
  | vertex _ _ ih => simpa using ih
  | bad => simp
  | missing => simp
  | missingOne h => have := hF _ _ _ h; omega

theorem intSize_pos (t : FaceType) : 0 < (intSize t).1 := by cases t <;> decide

theorem faceRecords_length {e : Endian} {d : FaceDecl} {n : Nat} {s : Bytes} {ks : List PlySays} (h : FaceRecords e d n s ks) :
    ks.length ≤ s.length + 1 := by
  induction h with
  | none => simp
  | face h _ ih =>
    obtain ⟨pb, n, ca, cb, cc, pa, rfl, -, -, h3, -⟩ := h
    have := intSize_pos d.tCount
    simp only [List.length_cons, List.length_append] at *
    omega
  | notThree => simp
  | short => simp
  | shortIndices => simp

theorem vertexRecords_length {V : Bytes → PlyPoint → Prop} {size : Nat} {F : Bytes → List PlySays → Prop}
    (hF : ∀ s ks, F s ks → ks.length ≤ s.length + 1) (hV : ∀ rec p, V rec p → rec ≠ []) {n : Nat} {s : Bytes} {ks : List PlySays}
    (h : VertexRecords V size F n s ks) : ks.length ≤ s.length + 1 := by
  induction h with
  | none h => exact hF _ _ h
  | vertex h _ ih =>
    have := List.length_pos_iff.2 (hV _ _ h)
    simp only [List.length_cons, List.length_append] at *
    omega
  | short => simp

theorem coordSize_pos (t : VertexType) : 0 < coordSize t := by cases t <;> decide

theorem binaryLoaded_ne {e : Endian} {d : VertexDecl} {rec : Bytes} {p : PlyPoint} (h : BinaryLoaded e d rec p) : rec ≠ [] := by
  rintro rfl
  obtain ⟨v1, v2, v3, h, -⟩ := h
  have := binaryCoords_length h
  have := coordSize_pos (d.typeOf .X)
  simp only [vertexSize, List.length_nil] at *
  omega

theorem lines_length_le (s : Bytes) : (lines s).length ≤ s.length := by
  rw [lines, List.length_map]
  exact rawLines_length s

theorem plyData_length {T : FloatText F64} {d : PlyDecl} {faces : Option (Nat × FaceDecl)} {k : Nat} {body : Bytes} {ks : List PlySays}
    (h : PlyData T d faces k body ks) : ks.length ≤ body.length + 1 := by
  unfold PlyData at h
  cases hf : d.format with
  | Ascii =>
    rw [hf] at h
    have := vertexLines_length (fun i ls ks h => by
      rcases faces with _ | ⟨n, fd⟩
      · rw [show ks = [] from h]; simp
      · exact faceLines_length h) h
    have := lines_length_le body
    omega
  | Binary e =>
    rw [hf] at h
    exact vertexRecords_length (fun s ks h => by
      rcases faces with _ | ⟨n, fd⟩
      · rw [show ks = [] from h]; simp
      · exact faceRecords_length h) (fun rec p h => binaryLoaded_ne h) h

/-! ### the iterators yield what the data mean -/

theorem Steps.of_eq {σ ε P : Type} {next : σ → Panics (Option (Except ε (Item P)) × σ)} {s s' : σ} {ks : List (Says P ε)}
    (h : Steps next s' ks) (he : next s = next s') : Steps next s ks := by
  cases h with
  | done h => exact .done (he.trans h)
  | reserve h hs => exact .reserve (he.trans h) hs
  | vertex h hs => exact .vertex (he.trans h) hs
  | face h hs => exact .face (he.trans h) hs
  | malformed h => exact .malformed (he.trans h)

theorem Steps.map {σ τ ε P : Type} {next : σ → Panics (Option (Except ε (Item P)) × σ)} {next' : τ → Panics (Option (Except ε (Item P)) × τ)}
    (g : σ → τ) (hg : ∀ s x s', next s = some (x, s') → next' (g s) = some (x, g s')) {s : σ} {ks : List (Says P ε)} (h : Steps next s ks) :
    Steps next' (g s) ks := by
  induction h with
  | done h => exact .done (hg _ _ _ h)
  | reserve h _ ih => exact .reserve (hg _ _ _ h) ih
  | vertex h _ ih => exact .vertex (hg _ _ _ h) ih
  | face h _ ih => exact .face (hg _ _ _ h) ih
  | malformed h => exact .malformed (hg _ _ _ h)

section
variable {T : FloatText F64} {format : PlyFormat} {hv : PlyVertexData} {hf : PlyFaceData}

theorem faceLines_steps {i n : Nat} {ls : List Bytes} {ks : List PlySays} (h : FaceLines i n ls ks) (read : Bytes) (cur : Nat)
    (hl : lines read = ls) (hc : cur + n = hf.count) :
    Steps (fun s => some (plyMeshInner T .Ascii hv hf s)) (.faces ⟨read, false, cur, i⟩) ks := by
  induction h generalizing read cur with
  | none =>
    rename_i i _
    refine .done (s' := .faces ⟨read, true, cur, i⟩) ?_
    simp only [plyMeshInner, plyMeshFaces, plyFacesInner, plyAsciiFacesNext, Bool.false_eq_true, if_false]
    rw [if_neg (by omega)]
  | missing =>
    rename_i i _
    refine .done (s' := .faces ⟨read, true, cur + 1, i⟩) ?_
    simp only [plyMeshInner, plyMeshFaces, plyFacesInner, plyAsciiFacesNext, Bool.false_eq_true, if_false]
    rw [if_pos (by omega), lines_nil hl]
  | face h _ ih =>
    obtain ⟨r, h1, h2⟩ := lines_cons hl
    refine .face (s' := .faces ⟨r, false, cur + 1, _⟩) ?_ (ih r (cur + 1) h2 (by omega))
    simp only [plyMeshInner, plyMeshFaces, plyFacesInner, plyAsciiFacesNext, Bool.false_eq_true, if_false]
    rw [if_pos (by omega), h1]
    dsimp only
    rw [indexLine_iff.2 h]
  | bad h =>
    obtain ⟨r, h1, h2⟩ := lines_cons hl
    rename_i i n l ls
    refine .malformed (s' := .faces ⟨r, true, cur + 1, i + 1⟩) ?_
    simp only [plyMeshInner, plyMeshFaces, plyFacesInner, plyAsciiFacesNext, Bool.false_eq_true, if_false]
    rw [if_pos (by omega), h1]
    dsimp only
    cases hx : plyIndexLine l with
    | none => rfl
    | some x => exact absurd ⟨x.1, x.2.1, x.2.2, indexLine_iff.1 hx⟩ h

theorem faceRecords_steps {e : Endian} {d : FaceDecl} (k1 : hf.countType = d.tCount) (k2 : hf.indexType = d.tIndex)
    (k3 : hf.before = total d.before) (k4 : hf.after = total d.after) {n : Nat} {s : Bytes} {ks : List PlySays}
    (h : FaceRecords e d n s ks) (cur i : Nat) (hc : cur + n = hf.count) :
    Steps (fun s => some (plyMeshInner T (.Binary e) hv hf s)) (.faces ⟨s, false, cur, i⟩) ks := by
  induction h generalizing cur with
  | none =>
    rename_i s
    refine .done (s' := .faces ⟨s, true, cur, i⟩) ?_
    simp only [plyMeshInner, plyMeshFaces, plyFacesInner, plyBinaryFacesNext, Bool.false_eq_true, if_false]
    rw [if_neg (by omega)]
    rfl
  | face h _ ih =>
    rename_i rec rest ks _
    refine .face (s' := .faces ⟨rest, false, cur + 1, i⟩) ?_ (ih (cur + 1) (by omega))
    simp only [plyMeshInner, plyMeshFaces, plyFacesInner, plyBinaryFacesNext, Bool.false_eq_true, if_false]
    rw [if_pos (by omega), binaryFace_of k1 k2 k3 k4 h]
    rfl
  | notThree h1 h2 h3 =>
    rename_i n pb c rest
    refine .malformed (s' := .faces ⟨rest, true, cur + 1, i⟩) ?_
    simp only [plyMeshInner, plyMeshFaces, plyFacesInner, plyBinaryFacesNext, Bool.false_eq_true, if_false]
    rw [if_pos (by omega), binaryFace_notThree k1 k3 h1 h2 h3]
    rfl
  | short h =>
    refine .malformed (s' := .faces ⟨[], true, cur + 1, i⟩) ?_
    simp only [plyMeshInner, plyMeshFaces, plyFacesInner, plyBinaryFacesNext, Bool.false_eq_true, if_false]
    rw [if_pos (by omega), binaryFace_short k1 k3 h]
    rfl
  | shortIndices h1 h2 h3 h4 =>
    refine .malformed (s' := .faces ⟨[], true, cur + 1, i⟩) ?_
    simp only [plyMeshInner, plyMeshFaces, plyFacesInner, plyBinaryFacesNext, Bool.false_eq_true, if_false]
    rw [if_pos (by omega), binaryFace_shortIndices k1 k2 k3 k4 h1 h2 h3 h4]
    rfl

/-- an iterator that yields the vertices of the inner iterator and then goes on with `after` -/
structure Embeds {σ : Type} (next : σ → Panics (Option (Except (LineInfo PlyError) (Item PlyPoint)) × σ))
    (inner : PlyCursor → Option (Except (LineInfo PlyError) PlyPoint) × PlyCursor) (emb : PlyCursor → σ)
    (after : PlyCursor → List PlySays → Prop) : Prop where
  data : ∀ c p c', inner c = (some (.ok p), c') → next (emb c) = some (some (.ok (.data p)), emb c')
  error : ∀ c e c', inner c = (some (.error e), c') → next (emb c) = some (some (.error e), emb c')
  done : ∀ c c', inner c = (none, c') → ∀ ks, after c' ks → Steps next (emb c) ks

variable {σ : Type} {next : σ → Panics (Option (Except (LineInfo PlyError) (Item PlyPoint)) × σ)} {emb : PlyCursor → σ}
  {after : PlyCursor → List PlySays → Prop} {d : VertexDecl}

theorem vertexLines_steps (hE : Embeds next (plyPointsInner T .Ascii hv) emb after) (hk : KnownVertex d hv)
    {F : Nat → List Bytes → List PlySays → Prop} (hF : ∀ i ls ks read b cur, F i ls ks → lines read = ls → after ⟨read, b, cur, i⟩ ks)
    {i n : Nat} {ls : List Bytes} {ks : List PlySays} (h : VertexLines (AsciiLoaded T d) F i n ls ks) (read : Bytes) (cur : Nat)
    (hl : lines read = ls) (hc : cur + n = hv.count) : Steps next (emb ⟨read, false, cur, i⟩) ks := by
  induction h generalizing read cur with
  | none h =>
    refine hE.done _ ⟨read, true, cur, _⟩ ?_ _ (hF _ _ _ _ _ _ h hl)
    simp only [plyPointsInner, plyAsciiPointsNext, Bool.false_eq_true, if_false]
    rw [if_neg (by omega), plyAsciiPointsEnd, if_neg (by simpa using hc)]
  | vertex h _ ih =>
    obtain ⟨r, h1, h2⟩ := lines_cons hl
    refine .vertex (hE.data _ _ ⟨r, false, cur + 1, _⟩ ?_) (ih r (cur + 1) h2 (by omega))
    simp only [plyPointsInner, plyAsciiPointsNext, Bool.false_eq_true, if_false]
    rw [if_pos (by omega), h1]
    dsimp only
    rw [(asciiVertex_ok hk).2 h]
  | bad h =>
    obtain ⟨r, h1, h2⟩ := lines_cons hl
    rename_i i n l ls
    refine .malformed (hE.error _ _ ⟨r, true, cur + 1, i + 1⟩ ?_)
    simp only [plyPointsInner, plyAsciiPointsNext, Bool.false_eq_true, if_false]
    rw [if_pos (by omega), h1]
    dsimp only
    cases hx : plyAsciiVertex T hv l with
    | ok p => exact absurd ⟨p, (asciiVertex_ok hk).1 hx⟩ h
    | error e => rw [asciiVertex_error hx]
  | missing =>
    rename_i i _
    refine .malformed (hE.error _ _ ⟨read, true, cur + 1, i⟩ ?_)
    simp only [plyPointsInner, plyAsciiPointsNext, Bool.false_eq_true, if_false]
    rw [if_pos (by omega), lines_nil hl]
    dsimp only
    rw [plyAsciiPointsEnd, if_pos (by dsimp only; omega)]
  | missingOne h =>
    refine hE.done _ ⟨read, true, cur + 1, _⟩ ?_ _ (hF _ _ _ _ _ _ h hl)
    simp only [plyPointsInner, plyAsciiPointsNext, Bool.false_eq_true, if_false]
    rw [if_pos (by omega), lines_nil hl]
    dsimp only
    rw [plyAsciiPointsEnd, if_neg (by simpa using hc)]

theorem vertexRecords_steps {e : Endian} (hE : Embeds next (plyPointsInner T (.Binary e) hv) emb after) (hk : KnownVertex d hv)
    {F : Bytes → List PlySays → Prop} (i : Nat) (hF : ∀ s ks b cur, F s ks → after ⟨s, b, cur, i⟩ ks) {n : Nat} {s : Bytes} {ks : List PlySays}
    (h : VertexRecords (BinaryLoaded e d) (vertexSize d (d.typeOf .X) (d.typeOf .Y) (d.typeOf .Z)) F n s ks) (cur : Nat)
    (hc : cur + n = hv.count) : Steps next (emb ⟨s, false, cur, i⟩) ks := by
  induction h generalizing cur with
  | none h =>
    rename_i s ks
    refine hE.done _ ⟨s, true, cur, i⟩ ?_ _ (hF _ _ _ _ h)
    simp only [plyPointsInner, plyBinaryPointsNext, Bool.false_eq_true, if_false]
    rw [if_neg (by omega)]
    rfl
  | vertex h _ ih =>
    rename_i n rec rest p ks _
    refine .vertex (hE.data _ _ ⟨rest, false, cur + 1, i⟩ ?_) (ih (cur + 1) (by omega))
    simp only [plyPointsInner, plyBinaryPointsNext, Bool.false_eq_true, if_false]
    rw [if_pos (by omega), binaryVertex_of hk h]
    rfl
  | short h =>
    refine .malformed (hE.error _ _ ⟨[], true, cur + 1, i⟩ ?_)
    simp only [plyPointsInner, plyBinaryPointsNext, Bool.false_eq_true, if_false]
    rw [if_pos (by omega), binaryVertex_none hk h]
    rfl

theorem meshInner_embeds : Embeds (fun s => some (plyMeshInner T format hv hf s)) (plyPointsInner T format hv) .points
    fun c ks => Steps (fun s => some (plyMeshInner T format hv hf s)) (.faces ⟨c.read, false, 0, c.iLine⟩) ks where
  data c p c' h := by simp only [plyMeshInner, h]
  error c e c' h := by simp only [plyMeshInner, h]
  done c c' h ks hs := hs.of_eq (by simp only [plyMeshInner, h])

theorem pointsInner_embeds : Embeds (fun s => some (plyData (plyPointsInner T format hv s).1, (plyPointsInner T format hv s).2))
    (plyPointsInner T format hv) id fun _ ks => ks = [] where
  data c p c' h := by simp only [id, h]; rfl
  error c e c' h := by simp only [id, h]; rfl
  done c c' h ks hs := by
    subst hs
    exact .done (s' := c') (by simp only [id, h]; rfl)

end

theorem plyPush_push : MeshPush plyPush (.none .InvalidMeshIndices) where
  reserve _ _ _ := rfl
  data _ _ := rfl
  face m a b c h := by
    obtain ⟨h1, h2, h3, h4, h5, h6⟩ := h
    simp only [plyPush, TMesh.tryAddConnection]
    rw [if_neg (by omega), if_neg (by omega)]
  bad m a b c h := by
    unfold Fits at h
    simp only [plyPush, TMesh.tryAddConnection]
    by_cases hr : a ≥ m.verts.length ∨ b ≥ m.verts.length ∨ c ≥ m.verts.length
    · simp [hr]
    · rw [if_neg hr, if_pos (by omega)]

theorem known_vertex {d : PlyDecl} {hdr : PlyHeader} (h : d.Known hdr) : KnownVertex d.vertex hdr.vertex := by
  obtain ⟨-, -, h1, h2, h3, h4, h5, h6, h7, h8, -⟩ := h
  exact ⟨h1, h2, h3, h4, h5, h6, h7, h8⟩

/-- the inner iterators yield the data -/
theorem plyMesh_steps {T : FloatText F64} {d : PlyDecl} {hdr : PlyHeader} (hk : d.Known hdr) {n : Nat} {fd : FaceDecl}
    (hf : d.face = some (n, fd)) {f : PlyFaceData} (hf' : hdr.face = some f) {k : Nat} {body : Bytes} {ks : List PlySays}
    (h : PlyData T d d.face k body ks) :
    Steps (fun s => some (plyMeshInner T hdr.format hdr.vertex f s)) (.points ⟨body, false, 0, k⟩) ks := by
  have hkv := known_vertex hk
  obtain ⟨h1, h2, -, -, -, -, -, -, -, -, h3⟩ := hk
  rw [hf, hf', Option.map_some, Option.some.injEq] at h3
  subst h3
  unfold PlyData at h
  rw [h1, hf] at *
  cases hfm : d.format with
  | Ascii =>
    rw [hfm] at h
    exact vertexLines_steps (meshInner_embeds (format := .Ascii)) hkv
      (fun i ls ks read b cur h hl => faceLines_steps h read 0 hl (by dsimp only; omega)) h body 0 rfl (by omega)
  | Binary e =>
    rw [hfm] at h
    exact vertexRecords_steps (meshInner_embeds (format := .Binary e)) hkv k
      (fun s ks b cur h => faceRecords_steps rfl rfl rfl rfl h 0 k (by dsimp only; omega)) h 0 (by omega)

theorem plyPoints_steps {T : FloatText F64} {d : PlyDecl} {hdr : PlyHeader} (hk : d.Known hdr) {k : Nat} {body : Bytes} {ks : List PlySays}
    (h : PlyData T d none k body ks) :
    Steps (fun s => some (plyData (plyPointsInner T hdr.format hdr.vertex s).1, (plyPointsInner T hdr.format hdr.vertex s).2))
      ⟨body, false, 0, k⟩ ks := by
  have hkv := known_vertex hk
  obtain ⟨h1, h2, -⟩ := hk
  unfold PlyData at h
  rw [h1] at *
  cases hfm : d.format with
  | Ascii =>
    rw [hfm] at h
    exact vertexLines_steps (emb := id) (pointsInner_embeds (format := .Ascii)) hkv (fun _ _ _ _ _ _ h _ => h) h body 0 rfl (by omega)
  | Binary e =>
    rw [hfm] at h
    exact vertexRecords_steps (emb := id) (pointsInner_embeds (format := .Binary e)) hkv k (fun _ _ _ _ h => h) h 0 (by omega)

end R3D

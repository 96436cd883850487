import Verif.Props.Stl
/-!
C63, C64, C65: binary files and their truncations, saving and loading ASCII files and their truncations.
-/
namespace R3D
open Spec

/-! ### binary files as the format demands -/

/-- a point in three `f32` -/
def Spec.point32Bytes (p : StlPoint) : Bytes :=
  F64.toBytes32 .little p.x ++ F64.toBytes32 .little p.y ++ F64.toBytes32 .little p.z

/-- a triangle and its attribute bytes -/
def Spec.recordBytes (x : StlFace StlPoint × Bytes) : Bytes :=
  point32Bytes x.1.n ++ point32Bytes x.1.a ++ point32Bytes x.1.b ++ point32Bytes x.1.c ++ x.2

/-- a binary file -/
def Spec.binaryFile (header : Bytes) (ts : List (StlFace StlPoint × Bytes)) : Bytes :=
  header ++ bytesOfNat .little 4 ts.length ++ (ts.map recordBytes).flatten

/-- coordinates as `f32` -/
def Spec.round32 (p : StlPoint) : StlPoint := ⟨p.x.toF32, p.y.toF32, p.z.toF32⟩

/-- all coordinates as `f32`: what a file can store -/
def Spec.stored (x : StlFace StlPoint × Bytes) : StlFace StlPoint := ⟨round32 x.1.a, round32 x.1.b, round32 x.1.c, round32 x.1.n⟩

theorem ofBytes32_toBytes32 (x : F64) : F64.ofBytes32 .little (F64.toBytes32 .little x) = x.toF32 := by
  have h := (c71_f32 .little).1 x []
  unfold readF32 at h
  have hl : (F64.toBytes32 .little x).length = 4 := bytesOfNat_length _ _ _
  rw [← hl, readExact_append] at h
  simpa using h

theorem point32Bytes_spec (p : StlPoint) : StlPoint32 (point32Bytes p) (round32 p) :=
  ⟨_, _, _, rfl, bytesOfNat_length _ _ _, bytesOfNat_length _ _ _, bytesOfNat_length _ _ _, by simp only [round32, ofBytes32_toBytes32]⟩

theorem recordBytes_spec (x : StlFace StlPoint × Bytes) (h : x.2.length = 2) : StlRecord (recordBytes x) (stored x) :=
  ⟨_, _, _, _, _, rfl, h, point32Bytes_spec _, point32Bytes_spec _, point32Bytes_spec _, point32Bytes_spec _⟩

theorem records_spec (ts : List (StlFace StlPoint × Bytes)) (h : ∀ t ∈ ts, t.2.length = 2) :
    List.Forall₂ StlRecord (ts.map recordBytes) (ts.map stored) := by
  rw [List.forall₂_map_left_iff, List.forall₂_map_right_iff, List.forall₂_same]
  exact fun t ht => recordBytes_spec t (h t ht)

theorem value_bytesOfNat {w n : Nat} (h : n < 256 ^ w) : value .little (bytesOfNat .little w n) = n := by
  rw [← natOfBytes_eq, natOfBytes_bytesOfNat _ h]

/-- the file is loaded as binary -/
def Spec.AsBinary (format : StlFormat) (header : Bytes) : Prop := format = .Binary ∨ format = .Auto ∧ header.take 5 ≠ b!"solid"

theorem stlFile_binary {T : FloatText F64} {format : StlFormat} {header rest : Bytes} (hf : AsBinary format header) (hh : 5 ≤ header.length)
    {fs : List (StlFace StlPoint)} {r : Except (LineInfo StlError) Unit} (h : StlBinary (header.drop 5 ++ rest) fs r) :
    StlFile T (header ++ rest) format fs r := by
  refine .inr ⟨header.take 5, header.drop 5 ++ rest, ?_, by simp; omega, .inr ⟨hf, h⟩⟩
  rw [← List.append_assoc, List.take_append_drop]

theorem binaryFile_spec (T : FloatText F64) (format : StlFormat) (header : Bytes) (ts : List (StlFace StlPoint × Bytes)) (extra : Bytes)
    (hh : header.length = 80) (hf : AsBinary format header) (ht : ∀ t ∈ ts, t.2.length = 2) (hn : ts.length ≤ 1000000000) :
    StlFile T (binaryFile header ts ++ extra) format (ts.map stored) (.ok ()) := by
  have hv : value .little (bytesOfNat .little 4 ts.length) = ts.length := value_bytesOfNat (by norm_num; omega)
  rw [binaryFile, List.append_assoc, List.append_assoc]
  refine stlFile_binary hf (by omega) (.inr ⟨header.drop 5, bytesOfNat .little 4 ts.length, _, by simp only [List.append_assoc], by simp [hh],
    bytesOfNat_length _ _ _, .inr ⟨by rw [hv]; exact hn, ts.map recordBytes, extra, rfl, records_spec ts ht, .inl ⟨?_, rfl⟩⟩⟩)
  rw [hv, List.length_map]

/-- **C63**: a binary file written according to the format is loaded as the stored triangles and normals in order, whatever the
header, the attribute bytes and the bytes behind the triangles are. -/
theorem c63_exact (T : FloatText F64) (format : StlFormat) (header : Bytes) (ts : List (StlFace StlPoint × Bytes)) (extra : Bytes)
    (hh : header.length = 80) (hf : AsBinary format header) (ht : ∀ t ∈ ts, t.2.length = 2) (hn : ts.length ≤ 1000000000)
    (hr : ∀ t ∈ ts, stored t = t.1) :
    loadStlTriplets T (binaryFile header ts ++ extra) format [] [] =
      some ((ts.flatMap fun t => corners t.1, ts.map fun t => t.1.n), .ok ()) := by
  have h := ((c63_loaders T _ format).2 _ _ (binaryFile_spec T format header ts extra hh hf ht hn)).1 [] []
  have e : ts.map stored = ts.map Prod.fst := List.map_congr_left hr
  rw [h, e]
  simp [List.flatMap_map]

theorem flatten_take (recs : List Bytes) (hl : ∀ x ∈ recs, x.length = 50) (k : Nat) (hk : k < recs.flatten.length) :
    ∃ rest, recs.flatten.take k = (recs.take (k / 50)).flatten ++ rest ∧ rest.length < 50 ∧ k / 50 < recs.length := by
  induction recs generalizing k with
  | nil => simp at hk
  | cons x recs ih =>
    have hx := hl x (by simp)
    by_cases h : k < 50
    · refine ⟨x.take k, ?_, by simp; omega, by simp; omega⟩
      rw [Nat.div_eq_of_lt h, List.flatten_cons, List.take_append_of_le_length (by omega)]
      simp
    · obtain ⟨rest, h1, h2, h3⟩ := ih (fun y hy => hl y (by simp [hy])) (k - 50) (by
        rw [List.flatten_cons, List.length_append, hx] at hk
        omega)
      have hd : k / 50 = (k - 50) / 50 + 1 := by omega
      refine ⟨rest, ?_, h2, by simp; omega⟩
      rw [hd, List.take_succ_cons, List.flatten_cons, List.flatten_cons, List.append_assoc, ← h1, List.take_append, hx,
        List.take_of_length_le (by omega)]

/-- **C63**: every truncation of a binary file is reported, after the triangles that are complete. -/
theorem c63_truncated (T : FloatText F64) (format : StlFormat) (header : Bytes) (ts : List (StlFace StlPoint × Bytes))
    (hh : header.length = 80) (hf : AsBinary format header) (ht : ∀ t ∈ ts, t.2.length = 2) (hn : ts.length ≤ 1000000000)
    (hr : ∀ t ∈ ts, stored t = t.1) (k : Nat) (hk : k < (binaryFile header ts).length) :
    loadStlTriplets T ((binaryFile header ts).take k) format [] [] =
      some (((ts.take ((k - 84) / 50)).flatMap fun t => corners t.1, (ts.take ((k - 84) / 50)).map fun t => t.1.n),
        .error (.none .AccessFile)) := by
  have hv : value .little (bytesOfNat .little 4 ts.length) = ts.length := value_bytesOfNat (by norm_num; omega)
  have hc : (bytesOfNat .little 4 ts.length).length = 4 := bytesOfNat_length _ _ _
  have key : StlFile T ((binaryFile header ts).take k) format ((ts.take ((k - 84) / 50)).map stored) (.error (.none .AccessFile)) := by
    by_cases h5 : k < 5
    · refine .inl ⟨by simp; omega, ?_, rfl⟩
      rw [show (k - 84) / 50 = 0 by omega]
      rfl
    · by_cases h84 : k < 84
      · rw [show (k - 84) / 50 = 0 by omega]
        have e : (binaryFile header ts).take k = header.take 5 ++ ((binaryFile header ts).take k).drop 5 := by
          conv_lhs => rw [← List.take_append_drop 5 ((binaryFile header ts).take k)]
          congr 1
          rw [List.take_take, Nat.min_eq_left (by omega), binaryFile, List.append_assoc, List.take_append_of_le_length (by omega)]
        rw [e]
        refine .inr ⟨header.take 5, _, rfl, by simp [hh], .inr ⟨hf, .inl ⟨?_, rfl, rfl⟩⟩⟩
        simp
        omega
      · have e : (binaryFile header ts).take k = header ++ (bytesOfNat .little 4 ts.length ++ (ts.map recordBytes).flatten.take (k - 84)) := by
          rw [binaryFile, List.take_append, List.length_append, hh, hc, List.take_of_length_le (by simp; omega), List.append_assoc]
        have hk' : k - 84 < (ts.map recordBytes).flatten.length := by
          rw [binaryFile, List.length_append, List.length_append, hh, hc] at hk
          omega
        obtain ⟨rest, h1, h2, h3⟩ := flatten_take (ts.map recordBytes) (fun x hx => by
          obtain ⟨t, htm, rfl⟩ := List.mem_map.1 hx
          exact stlRecord_length (recordBytes_spec t (ht t htm))) (k - 84) hk'
        rw [e, h1, ← List.map_take]
        rw [List.length_map] at h3
        refine stlFile_binary hf (by omega) (.inr ⟨header.drop 5, bytesOfNat .little 4 ts.length, _, by simp only [List.append_assoc], by simp [hh],
          hc, .inr ⟨by rw [hv]; exact hn, _, rest, rfl, records_spec _ (fun t h => ht t (List.mem_of_mem_take h)), .inr ⟨?_, h2, rfl⟩⟩⟩)
        rw [hv, List.length_map, List.length_take]
        omega
  have h := ((c63_loaders T _ format).2 _ _ key).1 [] []
  have e : (ts.take ((k - 84) / 50)).map stored = (ts.take ((k - 84) / 50)).map Prod.fst :=
    List.map_congr_left fun t h => hr t (List.mem_of_mem_take h)
  rw [h, e]
  simp only [List.nil_append, List.flatMap_map, List.map_map]
  rfl

/-- **C63**: an over-large face count is rejected. -/
theorem c63_count (T : FloatText F64) (format : StlFormat) (header count body : Bytes) (hh : header.length = 80) (hf : AsBinary format header)
    (hc : count.length = 4) (hn : 1000000000 < value .little count) :
    loadStlTriplets T (header ++ (count ++ body)) format [] [] = some (([], []), .error (.none .InvalidFaceCount)) :=
  ((c63_loaders T _ format).2 _ _ (stlFile_binary hf (by omega)
    (.inr ⟨header.drop 5, count, body, by simp, by simp [hh], hc, .inl ⟨hn, rfl, rfl⟩⟩))).1 [] []

/-- C63 is violated if the format is determined automatically: a binary file the header of which starts with `solid` is taken for
text, and without a line break in it nothing is loaded and nothing is reported. -/
theorem c63_violated_auto (T : FloatText F64) (rest : Bytes) (h : (10 : UInt8) ∉ rest) :
    loadStlTriplets T (b!"solid" ++ rest) .Auto [] [] = some (([], []), .ok ()) :=
  ((c63_loaders T _ .Auto).2 _ _ (.inr ⟨b!"solid", rest, rfl, rfl, .inl ⟨.inr ⟨rfl, rfl⟩, rest, [], by simp, .inr ⟨h, rfl⟩,
    .cut (by decide) (by simp [lines, rawLines])⟩⟩)).1 [] []

/-! #### examples -/

/-- a header as other programs write it -/
def exampleHeader : Bytes := List.replicate 80 32

/-- two triangles -/
def exampleTriangles : List (StlFace StlPoint × Bytes) :=
  [(⟨⟨f 0, f 0, f 0⟩, ⟨f 1, f 0, f 0⟩, ⟨f 0, f (3/2), f 0⟩, ⟨f 0, f 0, f 1⟩⟩, [0, 0]),
   (⟨⟨f 0, f 0, f 0⟩, ⟨f 1, f 0, f 0⟩, ⟨f 0, f 0, f (-1/4)⟩, ⟨f 0, f 1, f 0⟩⟩, [1, 2])]

example : exampleHeader.length = 80 ∧ AsBinary .Auto exampleHeader ∧ (∀ t ∈ exampleTriangles, t.2.length = 2) ∧
    (∀ t ∈ exampleTriangles, stored t = t.1) ∧ (binaryFile exampleHeader exampleTriangles).length = 184 :=
  ⟨by decide, .inr ⟨rfl, by decide⟩, by decide, by decide +kernel, by decide +kernel⟩

example : loadStlTriplets natF64 ((binaryFile exampleHeader exampleTriangles).take 183) .Auto [] [] =
    some (([⟨f 0, f 0, f 0⟩, ⟨f 1, f 0, f 0⟩, ⟨f 0, f (3/2), f 0⟩], [⟨f 0, f 0, f 1⟩]), .error (.none .AccessFile)) := by decide +kernel

example : ∃ count : Bytes, count = [0, 0, 0, 0xff] ∧ count.length = 4 ∧ 1000000000 < value .little count := ⟨_, rfl, by decide, by decide⟩

/-! ### text files -/

/-- the lines are complete facets -/
inductive Spec.Facets (T : FloatText F64) : List Bytes → List (StlFace StlPoint) → Prop
  | nil : Facets T [] []
  | cons {ls ls' : List Bytes} {f : StlFace StlPoint} {fs : List (StlFace StlPoint)} (h : StlFacet T ls f) (hs : Facets T ls' fs) :
      Facets T (ls ++ ls') (f :: fs)

theorem stlText_facets {T : FloatText F64} {ls ls' : List Bytes} {fs : List (StlFace StlPoint)} (h : Facets T ls fs) (i : Nat)
    {fs' : List (StlFace StlPoint)} {r : Except (LineInfo StlError) Unit} (ht : ∀ i, StlText T i ls' fs' r) :
    StlText T i (ls ++ ls') (fs ++ fs') r := by
  induction h generalizing i with
  | nil => exact ht i
  | cons h _ ih => rw [List.append_assoc]; exact .facet h (ih _)

/-- C65 is violated: a text file that ends between two lines of a facet is loaded without an error, as the facets before. -/
theorem c65_violated (T : FloatText F64) (format : StlFormat) (hf : format ≠ .Binary) (name : Bytes) (hname : (10 : UInt8) ∉ name)
    (text : Bytes) (facets part : List Bytes) (fs : List (StlFace StlPoint)) (ht : lines text = facets ++ part) (hfs : Facets T facets fs)
    (hlen : part.length < 7) (hpart : ∀ k l, part[k]? = some l → StlPart T k l) :
    loadStlTriplets T (b!"solid" ++ (name ++ [10] ++ text)) format [] [] = some ((fs.flatMap corners, fs.map StlFace.n), .ok ()) := by
  have key : StlFile T (b!"solid" ++ (name ++ [10] ++ text)) format fs (.ok ()) := by
    refine .inr ⟨b!"solid", _, rfl, rfl, .inl ⟨by cases format <;> simp_all, name ++ [10], text, rfl, .inl ⟨name, rfl, hname⟩, ?_⟩⟩
    rw [ht]
    simpa using stlText_facets (T := T) hfs 1 (fun i => .cut hlen hpart)
  exact ((c63_loaders T _ format).2 _ _ key).1 [] []

/-- a file that ends in the first facet -/
example : loadStlTriplets natF64 b!"solid x\nfacet normal 0 0 1\nouter loop\nvertex 0 0 0\nvertex 1 0 0\n" .Auto [] [] =
    some (([], []), .ok ()) := by decide +kernel

/-- it is such a file -/
example : ∀ k l, [b!"facet normal 0 0 1", b!"outer loop", b!"vertex 0 0 0", b!"vertex 1 0 0"][k]? = some l → StlPart natF64 k l := by
  intro k l h
  match k with
  | 0 => cases h; exact keyword_iff.2 (by decide)
  | 1 => cases h; exact keyword_iff.2 (by decide)
  | 2 => cases h; exact ⟨⟨f 0, f 0, f 0⟩, stlVertex_iff.1 (by decide +kernel)⟩
  | 3 => cases h; exact ⟨⟨f 1, f 0, f 0⟩, stlVertex_iff.1 (by decide +kernel)⟩
  | k + 4 => simp at h

/-- C65, what does hold: a text file is loaded without an error only if its lines are complete facets, followed by an `endsolid`
line, or by nothing, or by the first lines of one more facet, each of them right. Missing: the last case has to be an error. -/
theorem c65_partial (T : FloatText F64) (format : StlFormat) (name text : Bytes) (hf : format ≠ .Binary) (hname : (10 : UInt8) ∉ name)
    (res : (List StlPoint × List StlPoint))
    (h : loadStlTriplets T (b!"solid" ++ (name ++ [10] ++ text)) format [] [] = some (res, .ok ())) :
    ∃ facets fs rest, lines text = facets ++ rest ∧ Facets T facets fs ∧ res = (fs.flatMap corners, fs.map StlFace.n) ∧
      ((∃ l ls, rest = l :: ls ∧ Keyword b!"endsolid" l) ∨ rest = [] ∨
        (rest.length < 7 ∧ ∀ k l, rest[k]? = some l → StlPart T k l)) := by
  have hinv : ∀ {i ls fs r}, StlText T i ls fs r → r = .ok () → ∃ facets rest, ls = facets ++ rest ∧ Facets T facets fs ∧
      ((∃ l ls, rest = l :: ls ∧ Keyword b!"endsolid" l) ∨ rest = [] ∨
        (rest.length < 7 ∧ ∀ k l, rest[k]? = some l → StlPart T k l)) := by
    intro i ls fs r ht hr
    induction ht with
    | endsolid h => exact ⟨[], _, rfl, .nil, .inl ⟨_, _, rfl, h⟩⟩
    | facet h _ ih =>
      obtain ⟨facets, rest, rfl, h1, h2⟩ := ih hr
      exact ⟨_, rest, (List.append_assoc _ _ _).symm, .cons h h1, h2⟩
    | cut h hp => exact ⟨[], _, rfl, .nil, .inr (.inr ⟨h, hp⟩)⟩
    | bad => cases hr
  obtain ⟨fs, r, ht⟩ := stlText_exists T _ (lines text) le_rfl 1
  have key : StlFile T (b!"solid" ++ (name ++ [10] ++ text)) format fs r :=
    .inr ⟨b!"solid", _, rfl, rfl, .inl ⟨by cases format <;> simp_all, name ++ [10], text, rfl, .inl ⟨name, rfl, hname⟩, ht⟩⟩
  rw [((c63_loaders T _ format).2 _ _ key).1 [] []] at h
  simp only [List.nil_append, Option.some.injEq, Prod.mk.injEq] at h
  obtain ⟨rfl, rfl⟩ := h
  obtain ⟨facets, rest, h1, h2, h3⟩ := hinv ht rfl
  exact ⟨facets, fs, rest, h1, h2, rfl, h3⟩

/-! ### saving -/

/-- the text of a facet -/
def facetText (T : FloatText F64) (f : StlFace StlPoint) : List Bytes :=
  [b!"facet normal " ++ strExp T f.n, b!"    outer loop", b!"        vertex " ++ strExp T f.a, b!"        vertex " ++ strExp T f.b,
    b!"        vertex " ++ strExp T f.c, b!"    endloop", b!"endfacet"]

/-- the numbers of a point can be written -/
def Spec.PointOk (ok : F64 → Prop) (p : StlPoint) : Prop := ok p.x ∧ ok p.y ∧ ok p.z

theorem strExp_words {T : FloatText F64} {ok : F64 → Prop} (hT : T.Lawful ok) {p : StlPoint} (hp : PointOk ok p) :
    WordsOf blank (strExp T p) [T.fmt p.x, T.fmt p.y, T.fmt p.z] :=
  wordsOf_three ⟨hT.fmt_ne _ hp.1, fmt_blank hT hp.1⟩ ⟨hT.fmt_ne _ hp.2.1, fmt_blank hT hp.2.1⟩ ⟨hT.fmt_ne _ hp.2.2, fmt_blank hT hp.2.2⟩

theorem numbers_of {T : FloatText F64} {ok : F64 → Prop} (hT : T.Lawful ok) {p : StlPoint} (hp : PointOk ok p) (line : Bytes) (pre : List Bytes)
    (h : WordsOf blank line (pre ++ [T.fmt p.x, T.fmt p.y, T.fmt p.z])) : NumbersAfter T pre.length line p :=
  ⟨pre, _, _, _, [], rfl, h, hT.fromAscii _ hp.1, hT.fromAscii _ hp.2.1, hT.fromAscii _ hp.2.2⟩

theorem vertexText {T : FloatText F64} {ok : F64 → Prop} (hT : T.Lawful ok) {p : StlPoint} (hp : PointOk ok p) :
    StlVertex T (b!"        vertex " ++ strExp T p) p := by
  refine numbers_of hT hp _ [b!"vertex"] ?_
  have h := wordsOf_next (p := blank) (w := b!"vertex") (sep := b!" ") (by decide) (by decide) (by decide) (by decide) (strExp_words hT hp)
  have h2 : WordsOf blank (b!"        " ++ (b!"vertex" ++ b!" " ++ strExp T p)) (b!"vertex" :: [T.fmt p.x, T.fmt p.y, T.fmt p.z]) := by
    rw [← words_iff, words_blank _ (by decide)]
    exact words_iff.2 h
  exact h2

theorem facetText_facet {T : FloatText F64} {ok : F64 → Prop} (hT : T.Lawful ok) {f : StlFace StlPoint} (ha : PointOk ok f.a)
    (hb : PointOk ok f.b) (hc : PointOk ok f.c) (hn : PointOk ok f.n) : StlFacet T (facetText T f) f := by
  have h0 : Keyword b!"facet" (b!"facet normal " ++ strExp T f.n) := keyword_iff.2 rfl
  refine ⟨rfl, ?_, ?_, ?_, ?_, ?_⟩
  · intro k l h
    match k with
    | 0 => cases h; exact h0
    | 1 => cases h; exact keyword_iff.2 (by decide)
    | 2 => cases h; exact ⟨_, vertexText hT ha⟩
    | 3 => cases h; exact ⟨_, vertexText hT hb⟩
    | 4 => cases h; exact ⟨_, vertexText hT hc⟩
    | 5 => cases h; exact keyword_iff.2 (by decide)
    | 6 => cases h; exact keyword_iff.2 (by decide)
    | k + 7 => simp [facetText] at h
  · intro l h
    cases h
    refine ⟨_, unindent_iff.2 rfl, .inl (numbers_of hT hn _ [b!"facet", b!"normal"] ?_)⟩
    exact wordsOf_next (p := blank) (w := b!"facet") (sep := b!" ") (by decide) (by decide) (by decide) (by decide)
      (wordsOf_next (p := blank) (w := b!"normal") (sep := b!" ") (by decide) (by decide) (by decide) (by decide) (strExp_words hT hn))
  · intro l h; cases h; exact vertexText hT ha
  · intro l h; cases h; exact vertexText hT hb
  · intro l h; cases h; exact vertexText hT hc

theorem strExp_no_nl {T : FloatText F64} {ok : F64 → Prop} (hT : T.Lawful ok) {p : StlPoint} (hp : PointOk ok p) :
    (10 : UInt8) ∉ strExp T p := by
  have hh : ∀ {x}, ok x → (10 : UInt8) ∉ T.fmt x := fun hx => (fmt_props hT hx (d := 32) (by decide)).2.2.2.2
  simp only [strExp, List.mem_append, not_or]
  exact ⟨⟨⟨⟨hh hp.1, by decide⟩, hh hp.2.1⟩, by decide⟩, hh hp.2.2⟩

theorem strExp_last {T : FloatText F64} {ok : F64 → Prop} (hT : T.Lawful ok) {p : StlPoint} (hp : PointOk ok p) (pre : Bytes) (b : UInt8)
    (h : (pre ++ strExp T p).getLast? = some b) : b ∉ wsBytes := by
  rw [strExp, ← List.append_assoc] at h
  exact getLast?_not_ws hT hp.2.2 _ b h

theorem facetText_lines {T : FloatText F64} {ok : F64 → Prop} (hT : T.Lawful ok) {f : StlFace StlPoint} (ha : PointOk ok f.a)
    (hb : PointOk ok f.b) (hc : PointOk ok f.c) (hn : PointOk ok f.n) {l : Bytes} (hl : l ∈ facetText T f) :
    (10 : UInt8) ∉ l ∧ ∀ b, l.getLast? = some b → b ∉ wsBytes := by
  have hk : ∀ l : Bytes, ((10 : UInt8) ∉ l ∧ ∀ b ∈ l.getLast?, b ∉ wsBytes) → (10 : UInt8) ∉ l ∧ ∀ b, l.getLast? = some b → b ∉ wsBytes :=
    fun l h => ⟨h.1, fun b hb => h.2 b hb⟩
  have hv : ∀ (pre : Bytes) {p}, PointOk ok p → (10 : UInt8) ∉ pre →
      (10 : UInt8) ∉ pre ++ strExp T p ∧ ∀ b, (pre ++ strExp T p).getLast? = some b → b ∉ wsBytes := fun pre p hp hpre =>
    ⟨by simp only [List.mem_append, not_or]; exact ⟨hpre, strExp_no_nl hT hp⟩, strExp_last hT hp pre⟩
  simp only [facetText, List.mem_cons, List.not_mem_nil, or_false] at hl
  rcases hl with rfl | rfl | rfl | rfl | rfl | rfl | rfl
  · exact hv _ hn (by decide)
  · exact hk _ (by decide)
  · exact hv _ ha (by decide)
  · exact hv _ hb (by decide)
  · exact hv _ hc (by decide)
  · exact hk _ (by decide)
  · exact hk _ (by decide)

/-- the triangle of a face, with its normal -/
def Spec.TriangleOf (m : TMesh StlPoint) (i : Nat) (f : StlFace StlPoint) : Prop :=
  m.faceVertices i = some (f.a, f.b, f.c) ∧ faceNormal m i = some (.ok f.n)

theorem stlFacetText_iff {T : FloatText F64} {m : TMesh StlPoint} {i : Nat} {bs : Bytes} :
    stlFacetText T m i = some bs ↔ ∃ f, TriangleOf m i f ∧ bs = (facetText T f).flatMap nl := by
  have key : ∀ f : StlFace StlPoint, (facetText T f).flatMap nl =
      b!"facet normal " ++ strExp T f.n ++ b!"\n" ++ b!"    outer loop\n" ++ b!"        vertex " ++ strExp T f.a ++ b!"\n" ++
      b!"        vertex " ++ strExp T f.b ++ b!"\n" ++ b!"        vertex " ++ strExp T f.c ++ b!"\n" ++ b!"    endloop\n" ++
      b!"endfacet\n" := by
    intro f
    simp [facetText, nl, List.flatMap_cons]
  have hsome : ∀ f : StlFace StlPoint, TriangleOf m i f → stlFacetText T m i = some ((facetText T f).flatMap nl) := by
    rintro f ⟨h1, h2⟩
    rw [key f, stlFacetText, h1]
    show (faceNormal m i).bind _ = _
    rw [h2]
    rfl
  constructor
  · intro h
    rcases hv : m.faceVertices i with _ | ⟨v1, v2, v3⟩
    · rw [stlFacetText, hv] at h; cases h
    · rcases hn : faceNormal m i with _ | _ | n
      · rw [stlFacetText, hv, hn] at h; cases h
      · rw [stlFacetText, hv, hn] at h; cases h
      · have ht : TriangleOf m i ⟨v1, v2, v3, n⟩ := ⟨hv, hn⟩
        rw [hsome _ ht] at h
        exact ⟨_, ht, (Option.some.inj h).symm⟩
  · rintro ⟨f, hf, rfl⟩
    exact hsome f hf

theorem mapM_some_iff {β γ : Type} {g : β → Option γ} {l : List β} {r : List γ} :
    l.mapM g = some r ↔ List.Forall₂ (fun x y => g x = some y) l r := by
  induction l generalizing r with
  | nil => cases r <;> simp
  | cons x l ih =>
    rw [List.mapM_cons]
    constructor
    · intro h
      simp only [Option.bind_eq_bind, Option.bind_eq_some_iff, Option.pure_def, Option.some.injEq] at h
      obtain ⟨y, hy, ys, hys, rfl⟩ := h
      exact .cons hy (ih.1 hys)
    · intro h
      cases h with
      | cons hy hys => simp [hy, ih.2 hys]

/-- the whole text -/
theorem saveStlAscii_iff {T : FloatText F64} {m : TMesh StlPoint} {bs : Bytes} :
    saveStlAscii T m = some bs ↔ ∃ fs, List.Forall₂ (TriangleOf m) (List.range m.numFaces) fs ∧
      bs = b!"solid" ++ (b!" STL generated by rust-3d" ++ [10] ++
        ((fs.flatMap (facetText T)) ++ [b!"endsolid STL generated by rust-3d"]).flatMap nl) := by
  have hcons : ∀ (l : List Nat) (texts : List Bytes), List.Forall₂ (fun i t => stlFacetText T m i = some t) l texts ↔
      ∃ fs, List.Forall₂ (TriangleOf m) l fs ∧ texts = fs.map fun f => (facetText T f).flatMap nl := by
    intro l
    induction l with
    | nil =>
      intro texts
      constructor
      · rintro ⟨⟩; exact ⟨[], .nil, rfl⟩
      · rintro ⟨fs, hfs, rfl⟩; cases hfs; exact .nil
    | cons i l ih =>
      intro texts
      constructor
      · intro h
        cases h with
        | cons h hs =>
          obtain ⟨f, hf, rfl⟩ := stlFacetText_iff.1 h
          obtain ⟨fs, hfs, rfl⟩ := (ih _).1 hs
          exact ⟨f :: fs, .cons hf hfs, rfl⟩
      · rintro ⟨fs, hfs, rfl⟩
        cases hfs with
        | cons hf hfs => exact .cons (stlFacetText_iff.2 ⟨_, hf, rfl⟩) ((ih _).2 ⟨_, hfs, rfl⟩)
  have htext : ∀ fs : List (StlFace StlPoint), b!"solid STL generated by rust-3d\n" ++ (fs.map fun f => (facetText T f).flatMap nl).flatten ++
      b!"endsolid STL generated by rust-3d\n" = b!"solid" ++ (b!" STL generated by rust-3d" ++ [10] ++
        ((fs.flatMap (facetText T)) ++ [b!"endsolid STL generated by rust-3d"]).flatMap nl) := by
    intro fs
    rw [List.flatMap_append, List.flatMap_assoc, ← List.flatMap_def]
    simp [nl]
  unfold saveStlAscii
  simp only [Option.bind_eq_bind, Option.bind_eq_some_iff, Option.pure_def, Option.some.injEq, mapM_some_iff, hcons]
  constructor
  · rintro ⟨texts, ⟨fs, hfs, rfl⟩, rfl⟩
    exact ⟨fs, hfs, htext fs⟩
  · rintro ⟨fs, hfs, rfl⟩
    exact ⟨_, ⟨fs, hfs, rfl⟩, htext fs⟩

/-- **C64**: what `save_stl_ascii` writes is loaded as the triangles of the mesh in order, with their normals, for every mesh that can
be saved and every number format that can be read back. -/
theorem c64_roundtrip (T : FloatText F64) (ok : F64 → Prop) (hT : T.Lawful ok) (m : TMesh StlPoint) (bs : Bytes)
    (hs : saveStlAscii T m = some bs) (hv : ∀ p ∈ m.verts, PointOk ok p) (hn : ∀ i n, faceNormal m i = some (.ok n) → PointOk ok n)
    (format : StlFormat) (hf : format ≠ .Binary) :
    ∃ fs : List (StlFace StlPoint), fs.length = m.numFaces ∧ (∀ i f, fs[i]? = some f → TriangleOf m i f) ∧
      loadStlTriplets T bs format [] [] = some ((fs.flatMap corners, fs.map StlFace.n), .ok ()) := by
  obtain ⟨fs, hfs, rfl⟩ := saveStlAscii_iff.1 hs
  have hok : ∀ f ∈ fs, PointOk ok f.a ∧ PointOk ok f.b ∧ PointOk ok f.c ∧ PointOk ok f.n := by
    have : ∀ l fs', List.Forall₂ (TriangleOf m) l fs' → ∀ f ∈ fs', ∃ i, TriangleOf m i f := by
      intro l fs' h
      induction h with
      | nil => simp
      | cons h _ ih =>
        intro f hf
        rcases List.mem_cons.1 hf with rfl | hf
        · exact ⟨_, h⟩
        · exact ih f hf
    intro f hf
    obtain ⟨i, h1, h2⟩ := this _ _ hfs f hf
    have hmem : ∀ {v : Nat} {p : StlPoint}, m.vertex v = some p → PointOk ok p := fun h => hv _ (List.mem_of_getElem? h)
    unfold TMesh.faceVertices at h1
    simp only [Option.bind_eq_bind, Option.bind_eq_some_iff, Option.pure_def, Option.some.injEq, Prod.mk.injEq] at h1
    obtain ⟨_, _, a, ha, b, hb, c, hc, rfl, rfl, rfl⟩ := h1
    exact ⟨hmem ha, hmem hb, hmem hc, hn i _ h2⟩
  have hfacets : Facets T (fs.flatMap (facetText T)) fs := by
    clear hfs hs
    induction fs with
    | nil => exact .nil
    | cons f fs ih =>
      obtain ⟨h1, h2, h3, h4⟩ := hok f (by simp)
      exact .cons (facetText_facet hT h1 h2 h3 h4) (ih fun g hg => hok g (by simp [hg]))
  have hlines : lines (((fs.flatMap (facetText T)) ++ [b!"endsolid STL generated by rust-3d"]).flatMap nl) =
      (fs.flatMap (facetText T)) ++ [b!"endsolid STL generated by rust-3d"] := by
    have key : ∀ l ∈ (fs.flatMap (facetText T)) ++ [b!"endsolid STL generated by rust-3d"],
        (10 : UInt8) ∉ l ∧ ∀ b, l.getLast? = some b → b ∉ wsBytes := by
      intro l hl
      rcases List.mem_append.1 hl with hl | hl
      · obtain ⟨f, hf, hl⟩ := List.mem_flatMap.1 hl
        obtain ⟨h1, h2, h3, h4⟩ := hok f hf
        exact facetText_lines hT h1 h2 h3 h4 hl
      · rw [List.mem_singleton] at hl
        subst hl
        exact ⟨by decide, fun b hb => by cases hb; decide⟩
    exact lines_text _ (fun l hl => (key l hl).1) (fun l hl => (key l hl).2)
  have key : StlFile T (b!"solid" ++ (b!" STL generated by rust-3d" ++ [10] ++
        ((fs.flatMap (facetText T)) ++ [b!"endsolid STL generated by rust-3d"]).flatMap nl)) format fs (.ok ()) := by
    refine .inr ⟨b!"solid", _, rfl, rfl, .inl ⟨by cases format <;> simp_all, b!" STL generated by rust-3d" ++ [10], _, rfl,
      .inl ⟨_, rfl, by decide⟩, ?_⟩⟩
    rw [hlines]
    simpa using stlText_facets (T := T) hfacets 1 (fun i => .endsolid (keyword_iff.2 (by decide)))
  refine ⟨fs, by simpa using hfs.length_eq.symm, ?_, ((c63_loaders T _ format).2 _ _ key).1 [] []⟩
  intro i f hi
  obtain ⟨hlt, hget⟩ := List.getElem?_eq_some_iff.1 hi
  have hlt' : i < (List.range m.numFaces).length := by rw [hfs.length_eq]; exact hlt
  have := hfs.get hlt' hlt
  simpa [hget] using this

/-- **C64**: exactly the meshes the faces of which have a normal can be saved, saving any other mesh panics. -/
theorem c64_save (T : FloatText F64) (m : TMesh StlPoint) :
    (∃ bs, saveStlAscii T m = some bs) ↔ ∀ i < m.numFaces, ∃ f, TriangleOf m i f := by
  simp only [saveStlAscii_iff]
  constructor
  · rintro ⟨bs, fs, hfs, -⟩ i hi
    have hi' : i < (List.range m.numFaces).length := by simpa using hi
    have := hfs.get hi' (by rw [← hfs.length_eq]; exact hi')
    exact ⟨_, by simpa using this⟩
  · intro h
    have : ∀ l : List Nat, (∀ i ∈ l, i < m.numFaces) → ∃ fs, List.Forall₂ (TriangleOf m) l fs := by
      intro l hl
      induction l with
      | nil => exact ⟨[], .nil⟩
      | cons i l ih =>
        obtain ⟨f, hf⟩ := h i (hl i (by simp))
        obtain ⟨fs, hfs⟩ := ih fun j hj => hl j (by simp [hj])
        exact ⟨f :: fs, .cons hf hfs⟩
    obtain ⟨fs, hfs⟩ := this (List.range m.numFaces) (fun i hi => by simpa using hi)
    exact ⟨_, fs, hfs, rfl⟩

/-- a lawful format for 0, -0 and 1 -/
def bitText : FloatText F64 := ⟨fun x => if x = f 0 then b!"0e0" else if x = .fin true 0 then b!"-0e0" else b!"1e0",
  fun s => if s = b!"0e0" then some (f 0) else if s = b!"-0e0" then some (.fin true 0) else if s = b!"1e0" then some (f 1) else none⟩

theorem bitText_lawful : bitText.Lawful (fun x => x = f 0 ∨ x = .fin true 0 ∨ x = f 1) where
  parse_fmt := by rintro x (rfl | rfl | rfl) <;> decide +kernel
  fmt_ne := by rintro x (rfl | rfl | rfl) <;> decide +kernel
  fmt_bytes := by rintro x (rfl | rfl | rfl) <;> decide +kernel

/-- a mesh of one triangle, the normal of which points up -/
def exampleStlMesh : TMesh StlPoint := ⟨[⟨f 0, f 0, f 0⟩, ⟨f 1, f 0, f 0⟩, ⟨f 0, f 1, f 0⟩], [⟨0, 1, 2⟩]⟩

example : saveStlAscii bitText exampleStlMesh = some b!"solid STL generated by rust-3d\nfacet normal 0e0 -0e0 1e0\n    outer loop\n        vertex 0e0 0e0 0e0\n        vertex 1e0 0e0 0e0\n        vertex 0e0 1e0 0e0\n    endloop\nendfacet\nendsolid STL generated by rust-3d\n" ∧
    (∀ p ∈ exampleStlMesh.verts, PointOk (fun x => x = f 0 ∨ x = .fin true 0 ∨ x = f 1) p) ∧
    (∀ i n, faceNormal exampleStlMesh i = some (.ok n) → PointOk (fun x => x = f 0 ∨ x = .fin true 0 ∨ x = f 1) n) := by
  refine ⟨by decide +kernel, by unfold PointOk; decide +kernel, ?_⟩
  intro i n h
  match i with
  | 0 =>
    have : faceNormal exampleStlMesh 0 = some (.ok ⟨f 0, .fin true 0, f 1⟩) := by decide +kernel
    rw [this] at h
    cases h
    exact ⟨.inl rfl, .inr (.inl rfl), .inr (.inr rfl)⟩
  | i + 1 => cases h

/-- C64 is violated for meshes with a degenerate face: saving panics -/
theorem c64_violated : ∃ m : TMesh StlPoint, m = ⟨[⟨f 0, f 0, f 0⟩, ⟨f 1, f 0, f 0⟩, ⟨f 2, f 0, f 0⟩], [⟨0, 1, 2⟩]⟩ ∧ m.WellFormed ∧
    ∀ T, saveStlAscii T m = none := by
  refine ⟨_, rfl, by unfold TMesh.WellFormed; decide, fun T => ?_⟩
  rw [Option.eq_none_iff_forall_ne_some]
  intro bs h
  obtain ⟨g, -, hg⟩ := (c64_save T _).1 ⟨bs, h⟩ 0 (by decide)
  have : faceNormal ⟨[⟨f 0, f 0, f 0⟩, ⟨f 1, f 0, f 0⟩, ⟨f 2, f 0, f 0⟩], [⟨0, 1, 2⟩]⟩ 0 = some (.error .NormalizeVecWithoutLength) := by
    decide +kernel
  rw [this] at hg
  cases hg

end R3D

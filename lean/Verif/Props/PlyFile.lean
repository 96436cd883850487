import Verif.Props.Ply
import Verif.Props.StlFile
/-!
C59 and C60: saved .ply files are loaded again.
-/
namespace R3D
open Spec

/-! ### specification -/

/-- a saved mesh is loaded as `m`, by all loaders -/
def Spec.LoadsAs (T : FloatText F64) (file : Bytes) (m : TMesh PlyPoint) : Prop :=
  loadPlyMesh T file ⟨[], []⟩ = some (m, .ok ()) ∧
  (∀ ip, loadPlyPoints T file ip = some (ip ++ m.verts, .ok ())) ∧
  ∀ ip, loadPlyEither T file ⟨[], []⟩ ip = some (m, ip, .ok .Mesh)

/-- what a precision keeps of a point -/
def Spec.kept : Precision → PlyPoint → PlyPoint
  | .P64, p => p
  | .P32, p => ⟨p.x.toF32, p.y.toF32, p.z.toF32⟩

/-! ### the header -/

/-- what the headers of saved files declare -/
def saveDecl (fmt : PlyFormat) (t : VertexType) (colored : Bool) (nV nF : Nat) : PlyDecl :=
  ⟨fmt, nV, ⟨[], .X, t, [], .Y, t, [], .Z, t, if colored then [1, 1, 1] else []⟩, some (nF, ⟨[], .UChar, .UInt, []⟩)⟩

/-- the lines of the headers of saved files -/
def saveLines (fmt : PlyFormat) (coord face : Bytes) (colored : Bool) (nV nF : Nat) : List Bytes :=
  [b!"ply", formatLine fmt, b!"comment Created by rust-3d", b!"element vertex " ++ fmtNat nV, b!"property " ++ coord ++ b!" x",
   b!"property " ++ coord ++ b!" y", b!"property " ++ coord ++ b!" z"] ++
  (if colored then [b!"property uchar red", b!"property uchar green", b!"property uchar blue"] else []) ++
  [b!"element face " ++ fmtNat nF, b!"property list " ++ face ++ b!" vertex_indices"] ++ [b!"end_header"]

theorem elementLine_fmt {kind : Bytes} (hk : kind ∈ [b!"vertex", b!"face"]) {n : Nat} (hn : n < 2 ^ 64) :
    ElementLine kind (b!"element " ++ kind ++ b!" " ++ fmtNat n) n ∧ isComment (b!"element " ++ kind ++ b!" " ++ fmtNat n) = false ∧
    (10 : UInt8) ∉ (b!"element " ++ kind ++ b!" " ++ fmtNat n) ∧
    ∀ b, (b!"element " ++ kind ++ b!" " ++ fmtNat n).getLast? = some b → b ∉ wsBytes := by
  have hb : fmtNat n ≠ [] ∧ ∀ x ∈ fmtNat n, blank x = false := ⟨(fmtNat_digits n).1, fun x hx => (fmtNat_byte hx).1⟩
  have hk' : kind ≠ [] ∧ (∀ x ∈ kind, blank x = false) ∧ (10 : UInt8) ∉ kind := by
    simp only [List.mem_cons, List.not_mem_nil, or_false] at hk
    rcases hk with rfl | rfl <;> decide
  refine ⟨⟨⟨b!" " ++ fmtNat n, by simp⟩, b!"element", kind, fmtNat n, [], ?_, by rw [c72_decimal, if_pos hn]⟩, ?_, ?_, ?_⟩
  · have := wordsOf_three (a := b!"element") ⟨by decide, by decide⟩ ⟨hk'.1, hk'.2.1⟩ hb
    simpa using this
  · simp only [isComment, List.cons_append]
    rfl
  · simp only [List.mem_append, not_or]
    exact ⟨⟨⟨by decide, hk'.2.2⟩, by decide⟩, fun h => (fmtNat_byte h).2.1 rfl⟩
  · intro b hb'
    rw [List.getLast?_append_of_ne_nil _ hb.1] at hb'
    exact (fmtNat_byte (List.mem_of_getLast? hb')).2.2.2

set_option maxRecDepth 4000 in
theorem save_text {format coord face : Bytes} {fmt : PlyFormat} {t : VertexType} (hfmt : b!"format " ++ format ++ b!" 1.0" = formatLine fmt)
    (hc : (coord, t) ∈ [(b!"float", VertexType.Float), (b!"double", .Double)]) (hface : face ∈ [b!"uchar uint", b!"uint8 uint32"]) (colored : Bool)
    {nV nF : Nat} (hV : nV < 2 ^ 64) (hF : nF < 2 ^ 64) :
    PlyText (saveDecl fmt t colored nV nF) (saveLines fmt coord face colored nV nF) (plyHeaderText format coord face colored nV nF) := by
  obtain ⟨v1, v2, v3, v4⟩ := elementLine_fmt (kind := b!"vertex") (by decide) hV
  obtain ⟨f1, f2, f3, f4⟩ := elementLine_fmt (kind := b!"face") (by decide) hF
  have e1 : plyHeaderText format coord face colored nV nF = (saveLines fmt coord face colored nV nF).flatMap nl := by
    unfold plyHeaderText saveLines
    rw [← hfmt]
    cases colored <;> simp [nl]
  have hx : ∀ w ∈ [b!"x", b!"y", b!"z"], (10 : UInt8) ∉ (b!"property " ++ coord ++ b!" " ++ w) ∧
      (∀ b, (b!"property " ++ coord ++ b!" " ++ w).getLast? = some b → b ∉ wsBytes) ∧ isComment (b!"property " ++ coord ++ b!" " ++ w) = false := by
    simp only [List.mem_cons, Prod.mk.injEq, List.not_mem_nil, or_false] at hc
    intro w hw
    simp only [List.mem_cons, List.not_mem_nil, or_false] at hw
    rcases hc with ⟨rfl, rfl⟩ | ⟨rfl, rfl⟩ <;> rcases hw with rfl | rfl | rfl <;> refine ⟨by decide, ?_, by decide⟩ <;>
      (intro b hb; cases hb; decide)
  have hl : (10 : UInt8) ∉ (b!"property list " ++ face ++ b!" vertex_indices") ∧
      (∀ b, (b!"property list " ++ face ++ b!" vertex_indices").getLast? = some b → b ∉ wsBytes) ∧
      isComment (b!"property list " ++ face ++ b!" vertex_indices") = false ∧
      FaceListLine (b!"property list " ++ face ++ b!" vertex_indices") .UChar .UInt := by
    simp only [List.mem_cons, List.not_mem_nil, or_false] at hface
    rcases hface with rfl | rfl
    · refine ⟨by decide, ?_, by decide, ⟨_, rfl⟩, ⟨b!"property list uchar uint ", [], .inl rfl⟩, b!"property", b!"list", b!"uchar", b!"uint", [b!"vertex_indices"],
        toWords_iff.1 (by decide), by decide, by decide⟩
      intro b hb; cases hb; decide
    · refine ⟨by decide, ?_, by decide, ⟨_, rfl⟩, ⟨b!"property list uint8 uint32 ", [], .inl rfl⟩, b!"property", b!"list", b!"uint8", b!"uint32", [b!"vertex_indices"],
        toWords_iff.1 (by decide), by decide, by decide⟩
      intro b hb; cases hb; decide
  have hco : ∀ a, CoordLine (b!"property " ++ coord ++ b!" " ++ axisName a) a t := by
    simp only [List.mem_cons, Prod.mk.injEq, List.not_mem_nil, or_false] at hc
    intro a
    rcases hc with ⟨rfl, rfl⟩ | ⟨rfl, rfl⟩
    · cases a <;> exact coordLine_decide (ty := b!"float") (by decide) (by decide) (by decide)
    · cases a <;> exact coordLine_decide (ty := b!"double") (by decide) (by decide) (by decide)
  have hfl : (10 : UInt8) ∉ formatLine fmt ∧ (∀ b, (formatLine fmt).getLast? = some b → b ∉ wsBytes) ∧ isComment (formatLine fmt) = false := by
    rcases fmt with _ | e
    · refine ⟨by decide, ?_, by decide⟩
      intro b hb; cases hb; decide
    · cases e <;> refine ⟨by decide, ?_, by decide⟩ <;> (intro b hb; cases hb; decide)
  have hcol : ∀ l ∈ (if colored then [b!"property uchar red", b!"property uchar green", b!"property uchar blue"] else []),
      (10 : UInt8) ∉ l ∧ (∀ b, l.getLast? = some b → b ∉ wsBytes) ∧ isComment l = false ∧ OtherLine l 1 := by
    cases colored with
    | false => simp
    | true =>
      intro l hl
      simp only [if_true, List.mem_cons, List.not_mem_nil, or_false] at hl
      rcases hl with rfl | rfl | rfl
      · refine ⟨by decide, ?_, by decide, otherLine_decide (ty := b!"uchar") (name := b!"red") (by decide) (by decide) (by decide) (by decide)⟩
        intro b hb; cases hb; decide
      · refine ⟨by decide, ?_, by decide, otherLine_decide (ty := b!"uchar") (name := b!"green") (by decide) (by decide) (by decide) (by decide)⟩
        intro b hb; cases hb; decide
      · refine ⟨by decide, ?_, by decide, otherLine_decide (ty := b!"uchar") (name := b!"blue") (by decide) (by decide) (by decide) (by decide)⟩
        intro b hb; cases hb; decide
  generalize hcs : (if colored then [b!"property uchar red", b!"property uchar green", b!"property uchar blue"] else []) = cs at hcol
  refine ⟨by simp [saveDecl, VertexDecl.Distinct], ⟨_, b!"element vertex " ++ fmtNat nV,
    [b!"property " ++ coord ++ b!" x", b!"property " ++ coord ++ b!" y", b!"property " ++ coord ++ b!" z"] ++ cs,
    [b!"element face " ++ fmtNat nF, b!"property list " ++ face ++ b!" vertex_indices"], rfl, ?_, v1, ?_, ?_⟩, ?_⟩
  · rw [hcs]
    have hcf : cs.filter (fun l => !isComment l) = cs := List.filter_eq_self.2 fun l hl => by rw [(hcol l hl).2.2.1]; rfl
    have k1 := (hx b!"x" (by decide)).2.2
    have k2 := (hx b!"y" (by decide)).2.2
    have k3 := (hx b!"z" (by decide)).2.2
    have v2' : isComment (b!"element vertex " ++ fmtNat nV) = false := v2
    have f2' : isComment (b!"element face " ++ fmtNat nF) = false := f2
    have k1' : isComment (b!"property " ++ coord ++ b!" x") = false := by simpa using k1
    have k2' : isComment (b!"property " ++ coord ++ b!" y") = false := by simpa using k2
    have k3' : isComment (b!"property " ++ coord ++ b!" z") = false := by simpa using k3
    have hp : isComment b!"ply" = false := by decide
    have hcm : isComment b!"comment Created by rust-3d" = true := by decide
    simp only [List.filter_append, List.filter_cons, List.filter_nil, hp, hcm, hfl.2.2, hcf, Bool.not_false, Bool.not_true,
      if_true, Bool.false_eq_true, if_false, List.cons_append, List.nil_append, List.append_assoc]
    rfl
  · refine ⟨[], _, [], _, [], _, cs, rfl, .nil, ?_, .nil, ?_, .nil, ?_, ?_⟩
    · simpa [axisName, saveDecl] using hco .X
    · simpa [axisName, saveDecl] using hco .Y
    · simpa [axisName, saveDecl] using hco .Z
    · subst hcs
      cases colored with
      | false => exact .nil
      | true => exact .cons (hcol _ (by simp)).2.2.2 (.cons (hcol _ (by simp)).2.2.2 (.cons (hcol _ (by simp)).2.2.2 .nil))
  · exact ⟨_, _, rfl, f1, [], _, [], rfl, .nil, hl.2.2.2, .nil⟩
  · rw [e1]
    have hall : ∀ l ∈ saveLines fmt coord face colored nV nF, (10 : UInt8) ∉ l ∧ ∀ b, l.getLast? = some b → b ∉ wsBytes := by
      intro l hm
      simp only [saveLines, hcs, List.mem_append, List.mem_cons, List.not_mem_nil, or_false] at hm
      have k1 := hx b!"x" (by decide)
      have k2 := hx b!"y" (by decide)
      have k3 := hx b!"z" (by decide)
      rcases hm with (((rfl | rfl | rfl | rfl | rfl | rfl | rfl) | hm) | rfl | rfl) | rfl
      · exact ⟨by decide, by intro b hb; cases hb; decide⟩
      · exact ⟨hfl.1, hfl.2.1⟩
      · exact ⟨by decide, by intro b hb; cases hb; decide⟩
      · exact ⟨v3, v4⟩
      · exact ⟨by simpa using k1.1, by simpa using k1.2.1⟩
      · exact ⟨by simpa using k2.1, by simpa using k2.2.1⟩
      · exact ⟨by simpa using k3.1, by simpa using k3.2.1⟩
      · exact ⟨(hcol l hm).1, (hcol l hm).2.1⟩
      · exact ⟨f3, f4⟩
      · exact ⟨hl.1, hl.2.1⟩
      · exact ⟨by decide, by intro b hb; cases hb; decide⟩
    exact textOf_self (fun l hl => (hall l hl).1) fun l hl => (hall l hl).2

/-! ### the data -/

theorem fits_of {m : TMesh PlyPoint} (hm : m.WellFormed) {n : Nat} (hn : m.verts.length = n) :
    ∀ f ∈ m.faces, Fits 0 (0 + n) (.face f.a f.b f.c : PlySays) := by
  intro f hf
  have := hm f hf
  simp only [Fits]
  omega

/-- a file with all vertices and faces -/
theorem loadsAs_of (T : FloatText F64) {d : PlyDecl} {ls : List Bytes} {text : Bytes} (h : PlyText d ls text) (hf : d.face.isSome) {body : Bytes}
    {ps : List PlyPoint} {fs : List Face3} (hfit : ∀ f ∈ fs, Fits 0 (0 + ps.length) (.face f.a f.b f.c : PlySays))
    (h1 : PlyData T d d.face ls.length body (ps.map .vertex ++ fs.map fun f => .face f.a f.b f.c))
    (h2 : PlyData T d none ls.length body (ps.map .vertex)) : LoadsAs T (text ++ body) ⟨ps, fs⟩ := by
  obtain ⟨a1, a2, a3⟩ := says_mesh (ε := LineInfo PlyError) ps fs
  refine ⟨?_, (loadPoints_of T h h2).1, ?_⟩
  · obtain ⟨m', r, h3, h4⟩ := ply_mesh_of T h hf h1 ⟨[], []⟩
    obtain ⟨rfl, rfl⟩ := loaded_all h4 (a3 _ hfit)
    rw [h3, a1, a2]; rfl
  · intro ip
    obtain ⟨m', r, h3, h4⟩ := ply_either_mesh_of T h hf h1 ⟨[], []⟩ ip
    obtain ⟨rfl, rfl⟩ := loaded_all h4 (a3 _ hfit)
    rw [h3, a1, a2]; rfl

theorem faceText_words {f : Face3} (h : f.a < 2 ^ 64 ∧ f.b < 2 ^ 64 ∧ f.c < 2 ^ 64) :
    TriangleWords (b!"3 " ++ fmtNat f.a ++ b!" " ++ fmtNat f.b ++ b!" " ++ fmtNat f.c) f.a f.b f.c := by
  have hb : ∀ n, fmtNat n ≠ [] ∧ ∀ x ∈ fmtNat n, blank x = false := fun n => ⟨(fmtNat_digits n).1, fun x hx => (fmtNat_byte hx).1⟩
  refine ⟨fmtNat f.a, fmtNat f.b, fmtNat f.c, [], ?_, by rw [c72_decimal, if_pos h.1], by rw [c72_decimal, if_pos h.2.1], by rw [c72_decimal, if_pos h.2.2]⟩
  have := wordsOf_next (p := blank) (w := b!"3") (sep := b!" ") (by decide) (by decide) (by decide) (by decide)
    (wordsOf_three (hb f.a) (hb f.b) (hb f.c))
  simpa [List.append_assoc] using this

theorem faceText_clean (f : Face3) : (10 : UInt8) ∉ (b!"3 " ++ fmtNat f.a ++ b!" " ++ fmtNat f.b ++ b!" " ++ fmtNat f.c) ∧
    ∀ b, (b!"3 " ++ fmtNat f.a ++ b!" " ++ fmtNat f.b ++ b!" " ++ fmtNat f.c).getLast? = some b → b ∉ wsBytes := by
  have hn : ∀ n, (10 : UInt8) ∉ fmtNat n := fun n h => (fmtNat_byte h).2.1 rfl
  refine ⟨?_, ?_⟩
  · simp only [List.mem_append, not_or]
    exact ⟨⟨⟨⟨⟨by decide, hn _⟩, by decide⟩, hn _⟩, by decide⟩, hn _⟩
  · intro b hb
    rw [List.getLast?_append_of_ne_nil _ (fmtNat_digits _).1] at hb
    exact (fmtNat_byte (List.mem_of_getLast? hb)).2.2.2

/-- a text file: every vertex and face in its line -/
theorem ascii_loadsAs (T : FloatText F64) (colored : Bool) {m : TMesh PlyPoint} (hm : m.WellFormed) (hn : m.verts.length < 2 ^ 64)
    (hf : m.faces.length < 2 ^ 64) {vls : List Bytes} (h1 : ∀ l ∈ vls, (10 : UInt8) ∉ l ∧ ∀ b, l.getLast? = some b → b ∉ wsBytes)
    (h2 : List.Forall₂ (fun l p => ∃ ws, WordsOf blank l ws ∧ ∃ wx wy wz r, ws = wx :: wy :: wz :: r ∧
      fromAscii T.parse wx = some p.x ∧ fromAscii T.parse wy = some p.y ∧ fromAscii T.parse wz = some p.z) vls m.verts) :
    LoadsAs T (plyHeaderText b!"ascii" b!"float" b!"uchar uint" colored m.numVertices m.numFaces ++ vls.flatMap nl ++ m.faces.flatMap plyFaceText) m := by
  have ht := save_text (format := b!"ascii") (coord := b!"float") (face := b!"uchar uint") (fmt := .Ascii) (t := .Float) (by decide) (by decide) (by decide)
    colored (nV := m.numVertices) (nF := m.numFaces) hn hf
  let fl : Face3 → Bytes := fun f => b!"3 " ++ fmtNat f.a ++ b!" " ++ fmtNat f.b ++ b!" " ++ fmtNat f.c
  have ef : m.faces.flatMap plyFaceText = (m.faces.map fl).flatMap nl := by
    rw [List.flatMap_map]
    rfl
  have hl : lines (vls.flatMap nl ++ m.faces.flatMap plyFaceText) = vls ++ m.faces.map fl := by
    rw [ef, ← List.flatMap_append]
    apply lines_text
    · intro l hl
      rcases List.mem_append.1 hl with hl | hl
      · exact (h1 l hl).1
      · obtain ⟨f, -, rfl⟩ := List.mem_map.1 hl
        exact (faceText_clean f).1
    · intro l hl
      rcases List.mem_append.1 hl with hl | hl
      · exact (h1 l hl).2
      · obtain ⟨f, -, rfl⟩ := List.mem_map.1 hl
        exact (faceText_clean f).2
  have hfl : List.Forall₂ (fun l f => TriangleWords l f.a f.b f.c) (m.faces.map fl) m.faces := by
    rw [List.forall₂_map_left_iff]
    refine List.forall₂_same.2 fun f hf => faceText_words ?_
    have := hm f hf
    omega
  have hvl : List.Forall₂ (AsciiLoaded T (saveDecl .Ascii .Float colored m.numVertices m.numFaces).vertex) vls m.verts :=
    h2.imp fun l p ⟨ws, hw, wx, wy, wz, r, he, p1, p2, p3⟩ =>
      ⟨p.x, p.y, p.z, ⟨[], wx, [], wy, [], wz, r, by rw [he] at hw; exact hw, rfl, rfl, rfl, p1, p2, p3⟩, rfl⟩
  rw [List.append_assoc]
  refine loadsAs_of T ht rfl (fits_of hm rfl) ?_ ?_
  · unfold PlyData
    dsimp only [saveDecl]
    rw [hl]
    exact vertexLines_of hvl _ _ _ (faceLines_of hfl _ _ (.inl rfl))
  · unfold PlyData
    dsimp only [saveDecl]
    rw [hl]
    have := vertexLines_of (F := fun _ _ ks => ks = []) hvl (saveLines .Ascii b!"float" b!"uchar uint" colored m.numVertices m.numFaces).length
      (m.faces.map fl) [] rfl
    rw [List.append_nil] at this
    exact this

/-- **C59**: a mesh saved by `save_ply_ascii` is loaded again, with the same vertices and faces in the same order. -/
theorem c59_ascii (T : FloatText F64) (ok : F64 → Prop) (hT : T.Lawful ok) (m : TMesh PlyPoint) (hok : ∀ p ∈ m.verts, ok p.x ∧ ok p.y ∧ ok p.z)
    (hm : m.WellFormed) (hn : m.verts.length < 2 ^ 64) (hf : m.faces.length < 2 ^ 64) : LoadsAs T (savePlyAscii T m) m := by
  let vl : PlyPoint → Bytes := fun p => T.fmt p.x ++ b!" " ++ T.fmt p.y ++ b!" " ++ T.fmt p.z
  have ev : m.verts.flatMap (plyVertexText T) = (m.verts.map vl).flatMap nl := by
    rw [List.flatMap_map]
    rfl
  unfold savePlyAscii
  rw [ev]
  refine ascii_loadsAs T false hm hn hf ?_ ?_
  · intro l hl
    obtain ⟨p, hp, rfl⟩ := List.mem_map.1 hl
    obtain ⟨ox, oy, oz⟩ := hok p hp
    refine ⟨?_, fun b hb => getLast?_not_ws hT oz _ b hb⟩
    simp only [vl, List.mem_append, not_or]
    exact ⟨⟨⟨⟨(fmt_props hT ox (d := 32) (by decide)).2.2.2.2, by decide⟩, (fmt_props hT oy (d := 32) (by decide)).2.2.2.2⟩, by decide⟩,
      (fmt_props hT oz (d := 32) (by decide)).2.2.2.2⟩
  · rw [List.forall₂_map_left_iff]
    refine List.forall₂_same.2 fun p hp => ?_
    obtain ⟨ox, oy, oz⟩ := hok p hp
    exact ⟨_, wordsOf_three ⟨hT.fmt_ne _ ox, fmt_blank hT ox⟩ ⟨hT.fmt_ne _ oy, fmt_blank hT oy⟩ ⟨hT.fmt_ne _ oz, fmt_blank hT oz⟩, _, _, _, [], rfl,
      hT.fromAscii _ ox, hT.fromAscii _ oy, hT.fromAscii _ oz⟩

theorem forall₂_zip {A B C : Type} {R : C → A → Prop} (g : A × B → C) {l : List A} {l' : List B} (hl : l.length = l'.length)
    (h : ∀ x ∈ l, ∀ y, R (g (x, y)) x) : List.Forall₂ R ((l.zip l').map g) l := by
  induction l generalizing l' with
  | nil => exact .nil
  | cons x l ih =>
    cases l' with
    | nil => simp at hl
    | cons y l' =>
      rw [List.zip_cons_cons, List.map_cons]
      exact .cons (h x (by simp) y) (ih (by simpa using hl) fun x hx => h x (by simp [hx]))

/-- **C59**: the same for `save_ply_ascii_colored`, which needs a color for every vertex. -/
theorem c59_ascii_colored (T : FloatText F64) (ok : F64 → Prop) (hT : T.Lawful ok) (m : TMesh PlyPoint) (hok : ∀ p ∈ m.verts, ok p.x ∧ ok p.y ∧ ok p.z)
    (hm : m.WellFormed) (hn : m.verts.length < 2 ^ 64) (hf : m.faces.length < 2 ^ 64) (colors : List Rgb) :
    (colors.length = m.verts.length → ∃ file, savePlyAsciiColored T m colors = .ok file ∧ LoadsAs T file m) ∧
    (colors.length ≠ m.verts.length → savePlyAsciiColored T m colors = .error .ColorArrayIncorrectLength) := by
  constructor
  · intro hc
    refine ⟨_, if_neg (by simpa [TMesh.numVertices] using hc.symm), ?_⟩
    let vl : PlyPoint × Rgb → Bytes := fun x => T.fmt x.1.x ++ b!" " ++ T.fmt x.1.y ++ b!" " ++ T.fmt x.1.z ++ b!" " ++ fmtNat x.2.r.toNat ++ b!" " ++
      fmtNat x.2.g.toNat ++ b!" " ++ fmtNat x.2.b.toNat
    have ev : (m.verts.zip colors).flatMap (plyColoredText T) = ((m.verts.zip colors).map vl).flatMap nl := by
      rw [List.flatMap_map]
      rfl
    rw [ev]
    have hn' : ∀ n, (10 : UInt8) ∉ fmtNat n := fun n h => (fmtNat_byte h).2.1 rfl
    have hb : ∀ n, fmtNat n ≠ [] ∧ ∀ x ∈ fmtNat n, blank x = false := fun n => ⟨(fmtNat_digits n).1, fun x hx => (fmtNat_byte hx).1⟩
    refine ascii_loadsAs T true hm hn hf ?_ ?_
    · intro l hl
      obtain ⟨⟨p, c⟩, hp, rfl⟩ := List.mem_map.1 hl
      obtain ⟨ox, oy, oz⟩ := hok p (List.of_mem_zip hp).1
      refine ⟨?_, fun b hb => ?_⟩
      · simp only [vl, List.mem_append, not_or]
        exact ⟨⟨⟨⟨⟨⟨⟨⟨⟨⟨(fmt_props hT ox (d := 32) (by decide)).2.2.2.2, by decide⟩, (fmt_props hT oy (d := 32) (by decide)).2.2.2.2⟩, by decide⟩,
          (fmt_props hT oz (d := 32) (by decide)).2.2.2.2⟩, by decide⟩, hn' _⟩, by decide⟩, hn' _⟩, by decide⟩, hn' _⟩
      · rw [List.getLast?_append_of_ne_nil _ (fmtNat_digits _).1] at hb
        exact (fmtNat_byte (List.mem_of_getLast? hb)).2.2.2
    · refine forall₂_zip vl hc.symm fun p hp c => ?_
      obtain ⟨ox, oy, oz⟩ := hok p hp
      have hw := wordsOf_next (p := blank) (sep := b!" ") (hT.fmt_ne _ ox) (fmt_blank hT ox) (by decide) (by decide)
        (wordsOf_next (p := blank) (sep := b!" ") (hT.fmt_ne _ oy) (fmt_blank hT oy) (by decide) (by decide)
        (wordsOf_next (p := blank) (sep := b!" ") (hT.fmt_ne _ oz) (fmt_blank hT oz) (by decide) (by decide)
        (wordsOf_three (hb c.r.toNat) (hb c.g.toNat) (hb c.b.toNat))))
      refine ⟨[T.fmt p.x, T.fmt p.y, T.fmt p.z, fmtNat c.r.toNat, fmtNat c.g.toNat, fmtNat c.b.toNat], ?_, _, _, _, _, rfl, hT.fromAscii _ ox, hT.fromAscii _ oy, hT.fromAscii _ oz⟩
      simpa [vl, List.append_assoc] using hw
  · intro hc
    exact if_pos (by simpa [TMesh.numVertices] using Ne.symm hc)

/-! ### binary files -/

theorem ofBytes32_toBytes32' (e : Endian) (x : F64) : F64.ofBytes32 e (F64.toBytes32 e x) = x.toF32 := by
  have h := (c71_f32 e).1 x []
  unfold readF32 at h
  have hl : (F64.toBytes32 e x).length = 4 := bytesOfNat_length _ _ _
  rw [← hl, readExact_append] at h
  simpa using h

theorem ofBytes64_toBytes64 (e : Endian) {x : F64} (hx : F64.Rep x) : F64.ofBytes64 e (F64.toBytes64 e x) = x := by
  have h := (c71_f64 e).1 x [] hx
  unfold readF64 at h
  have hl : (F64.toBytes64 e x).length = 8 := bytesOfNat_length _ _ _
  rw [← hl, readExact_append] at h
  simpa using h

/-- the type of the coordinates -/
def coordOf : Precision → VertexType
  | .P32 => .Float
  | .P64 => .Double

theorem vertexBytes_loaded (prec : Precision) (colored : Bool) (nV nF : Nat) {p : PlyPoint} (hp : F64.Rep p.x ∧ F64.Rep p.y ∧ F64.Rep p.z) {tail : Bytes}
    (ht : tail.length = if colored then 3 else 0) :
    BinaryLoaded .big (saveDecl (.Binary .big) (coordOf prec) colored nV nF).vertex (plyVertexBytes prec p ++ tail) (kept prec p) := by
  have ht' : tail.length = (saveDecl (.Binary .big) (coordOf prec) colored nV nF).vertex.after.sum := by
    rw [ht]; cases colored <;> rfl
  cases prec with
  | P32 =>
    exact ⟨p.x.toF32, p.y.toF32, p.z.toF32, ⟨[], F64.toBytes32 .big p.x, [], F64.toBytes32 .big p.y, [], F64.toBytes32 .big p.z, tail, by simp [plyVertexBytes],
      rfl, rfl, rfl, ht', ⟨bytesOfNat_length _ _ _, (ofBytes32_toBytes32' _ _).symm⟩, ⟨bytesOfNat_length _ _ _, (ofBytes32_toBytes32' _ _).symm⟩,
      ⟨bytesOfNat_length _ _ _, (ofBytes32_toBytes32' _ _).symm⟩⟩, rfl⟩
  | P64 =>
    exact ⟨p.x, p.y, p.z, ⟨[], F64.toBytes64 .big p.x, [], F64.toBytes64 .big p.y, [], F64.toBytes64 .big p.z, tail, by simp [plyVertexBytes],
      rfl, rfl, rfl, ht', ⟨bytesOfNat_length _ _ _, (ofBytes64_toBytes64 _ hp.1).symm⟩, ⟨bytesOfNat_length _ _ _, (ofBytes64_toBytes64 _ hp.2.1).symm⟩,
      ⟨bytesOfNat_length _ _ _, (ofBytes64_toBytes64 _ hp.2.2).symm⟩⟩, rfl⟩

theorem faceBytes_record {f : Face3} (h : f.a < 2 ^ 32 ∧ f.b < 2 ^ 32 ∧ f.c < 2 ^ 32) :
    FaceRecord .big ⟨[], .UChar, .UInt, []⟩ (plyFaceBytes f) f.a f.b f.c := by
  have hv : ∀ n < 2 ^ 32, value .big (bytesOfNat .big 4 (n % 2 ^ 32)) = n := by
    intro n hn
    rw [Nat.mod_eq_of_lt hn, ← natOfBytes_eq, natOfBytes_bytesOfNat _ (by omega)]
  refine ⟨[], bytesOfNat .big 1 3, bytesOfNat .big 4 (f.a % 2 ^ 32), bytesOfNat .big 4 (f.b % 2 ^ 32), bytesOfNat .big 4 (f.c % 2 ^ 32), [], by simp [plyFaceBytes], rfl, rfl, bytesOfNat_length _ _ _, bytesOfNat_length _ _ _, bytesOfNat_length _ _ _,
    bytesOfNat_length _ _ _, by decide, ?_, ?_, ?_⟩
  · simpa [intValue, intSize] using hv _ h.1
  · simpa [intValue, intSize] using hv _ h.2.1
  · simpa [intValue, intSize] using hv _ h.2.2

theorem binary_loadsAs (T : FloatText F64) (prec : Precision) (colored : Bool) {m : TMesh PlyPoint} (hm : m.WellFormed) (hn : m.verts.length < 2 ^ 32)
    (hf : m.faces.length < 2 ^ 64) {recs : List Bytes}
    (h : List.Forall₂ (fun rec p => BinaryLoaded .big (saveDecl (.Binary .big) (coordOf prec) colored m.numVertices m.numFaces).vertex rec (kept prec p)) recs m.verts) :
    LoadsAs T (plyHeaderText b!"binary_big_endian" (plyCoordWord prec) b!"uint8 uint32" colored m.numVertices m.numFaces ++ recs.flatten ++
      m.faces.flatMap plyFaceBytes) ⟨m.verts.map (kept prec), m.faces⟩ := by
  have ht := save_text (format := b!"binary_big_endian") (coord := plyCoordWord prec) (face := b!"uint8 uint32") (fmt := .Binary .big) (t := coordOf prec)
    (by decide) (by cases prec <;> decide) (by decide) colored (nV := m.numVertices) (nF := m.numFaces) (lt_of_lt_of_le hn (by decide)) hf
  have hfr : List.Forall₂ (fun rec f => FaceRecord .big ⟨[], .UChar, .UInt, []⟩ rec f.a f.b f.c) (m.faces.map plyFaceBytes) m.faces := by
    rw [List.forall₂_map_left_iff]
    refine List.forall₂_same.2 fun f hf => faceBytes_record ?_
    have := hm f hf
    omega
  have hv := List.forall₂_map_right_iff.2 h
  rw [List.append_assoc, List.flatMap_def]
  refine loadsAs_of T ht rfl (fits_of hm (by simp)) ?_ ?_
  · unfold PlyData
    dsimp only [saveDecl]
    have := vertexRecords_of (size := vertexSize (saveDecl (.Binary .big) (coordOf prec) colored m.numVertices m.numFaces).vertex (coordOf prec) (coordOf prec) (coordOf prec))
      (F := fun s ks => FaceRecords .big ⟨[], .UChar, .UInt, []⟩ m.numFaces s ks) hv (rest := (m.faces.map plyFaceBytes).flatten)
      (by have := faceRecords_of hfr []; rw [List.append_nil] at this; exact this)
    rw [List.length_map] at this
    exact this
  · unfold PlyData
    dsimp only [saveDecl]
    have := vertexRecords_of (size := vertexSize (saveDecl (.Binary .big) (coordOf prec) colored m.numVertices m.numFaces).vertex (coordOf prec) (coordOf prec) (coordOf prec))
      (F := fun s ks => ks = []) hv (rest := (m.faces.map plyFaceBytes).flatten) rfl
    rw [List.length_map, List.append_nil] at this
    exact this

/-- **C60**: a mesh saved by `save_ply_binary` is loaded again, exactly with double precision, rounded to `f32` with single
precision. -/
theorem c60_binary (T : FloatText F64) (m : TMesh PlyPoint) (hok : ∀ p ∈ m.verts, F64.Rep p.x ∧ F64.Rep p.y ∧ F64.Rep p.z) (hm : m.WellFormed)
    (hn : m.verts.length < 2 ^ 32) (hf : m.faces.length < 2 ^ 64) :
    LoadsAs T (savePlyBinary m .P64) m ∧ ∀ prec, LoadsAs T (savePlyBinary m prec) ⟨m.verts.map (kept prec), m.faces⟩ := by
  have key : ∀ prec, LoadsAs T (savePlyBinary m prec) ⟨m.verts.map (kept prec), m.faces⟩ := by
    intro prec
    unfold savePlyBinary
    rw [List.flatMap_def (l := m.verts)]
    refine binary_loadsAs T prec false hm hn hf ?_
    rw [List.forall₂_map_left_iff]
    refine List.forall₂_same.2 fun p hp => ?_
    have := vertexBytes_loaded prec false m.numVertices m.numFaces (hok p hp) (tail := []) rfl
    rwa [List.append_nil] at this
  refine ⟨?_, key⟩
  have := key .P64
  rwa [show kept .P64 = id from rfl, List.map_id] at this

/-- **C60**: the same for `save_ply_binary_colored`, which needs a color for every vertex. -/
theorem c60_binary_colored (T : FloatText F64) (m : TMesh PlyPoint) (hok : ∀ p ∈ m.verts, F64.Rep p.x ∧ F64.Rep p.y ∧ F64.Rep p.z) (hm : m.WellFormed)
    (hn : m.verts.length < 2 ^ 32) (hf : m.faces.length < 2 ^ 64) (prec : Precision) (colors : List Rgb) :
    (colors.length = m.verts.length → ∃ file, savePlyBinaryColored m prec colors = .ok file ∧ LoadsAs T file ⟨m.verts.map (kept prec), m.faces⟩) ∧
    (colors.length ≠ m.verts.length → savePlyBinaryColored m prec colors = .error .ColorArrayIncorrectLength) := by
  constructor
  · intro hc
    refine ⟨_, if_neg (by simpa [TMesh.numVertices] using hc.symm), ?_⟩
    rw [List.flatMap_def (l := m.verts.zip colors)]
    refine binary_loadsAs T prec true hm hn hf ?_
    exact forall₂_zip _ hc.symm fun p hp c => vertexBytes_loaded prec true m.numVertices m.numFaces (hok p hp) rfl
  · intro hc
    exact if_pos (by simpa [TMesh.numVertices] using Ne.symm hc)

/-- With 2^32 vertices or more a face index no longer fits: the mesh is saved without an error and differs when loaded. -/
theorem c60_index_wraps (f : Face3) (h : 2 ^ 32 ≤ f.a) : ∃ g : Face3, g.a ≠ f.a ∧ plyFaceBytes g = plyFaceBytes f := by
  refine ⟨⟨f.a % 2 ^ 32, f.b, f.c⟩, ?_, ?_⟩
  · have := Nat.mod_lt f.a (show 0 < 2 ^ 32 by decide)
    dsimp only
    omega
  · simp [plyFaceBytes]

/-! ### the hypotheses hold for a triangle, and what is written for it -/

def examplePlyMesh : TMesh PlyPoint := ⟨[⟨f 0, f 0, f 0⟩, ⟨f 1, f 0, f 0⟩, ⟨f 0, f 1, f 1⟩], [⟨0, 1, 2⟩]⟩

example : LoadsAs bitText (savePlyAscii bitText examplePlyMesh) examplePlyMesh :=
  c59_ascii bitText _ bitText_lawful _ (by decide +kernel) (by unfold TMesh.WellFormed; decide) (by decide) (by decide)

example : ∃ file, savePlyAsciiColored bitText examplePlyMesh [⟨1, 2, 3⟩, ⟨4, 5, 6⟩, ⟨7, 8, 255⟩] = .ok file ∧ LoadsAs bitText file examplePlyMesh :=
  (c59_ascii_colored bitText _ bitText_lawful examplePlyMesh (by decide +kernel) (by unfold TMesh.WellFormed; decide) (by decide) (by decide) _).1 rfl

theorem examplePlyMesh_rep : ∀ p ∈ examplePlyMesh.verts, F64.Rep p.x ∧ F64.Rep p.y ∧ F64.Rep p.z := by
  have h0 : F64.Rep (f 0) := F64.ofRat_rep 0
  have h1 : F64.Rep (f 1) := F64.ofRat_rep 1
  intro p hp
  simp only [examplePlyMesh, List.mem_cons, List.not_mem_nil, or_false] at hp
  rcases hp with rfl | rfl | rfl <;> exact ⟨by assumption, by assumption, by assumption⟩

example (T : FloatText F64) : LoadsAs T (savePlyBinary examplePlyMesh .P64) examplePlyMesh :=
  (c60_binary T _ examplePlyMesh_rep (by unfold TMesh.WellFormed; decide) (by decide) (by decide)).1

example (T : FloatText F64) : ∃ file, savePlyBinaryColored examplePlyMesh .P32 [⟨1, 2, 3⟩, ⟨4, 5, 6⟩, ⟨7, 8, 255⟩] = .ok file ∧
    LoadsAs T file ⟨examplePlyMesh.verts.map (kept .P32), [⟨0, 1, 2⟩]⟩ :=
  (c60_binary_colored T _ examplePlyMesh_rep (by unfold TMesh.WellFormed; decide) (by decide) (by decide) _ _).1 rfl

/-- the data of a colored binary vertex and of a face -/
example : plyVertexBytes .P32 ⟨f 1, f 0, f (-2)⟩ = [0x3f, 0x80, 0, 0, 0, 0, 0, 0, 0xc0, 0, 0, 0] ∧
    plyFaceBytes ⟨0, 1, 258⟩ = [3, 0, 0, 0, 0, 0, 0, 0, 1, 0, 0, 1, 2] := by decide +kernel

/-- the index 2^32 + 7 is written as 7 -/
example : plyFaceBytes ⟨2 ^ 32 + 7, 1, 2⟩ = plyFaceBytes ⟨7, 1, 2⟩ := by decide +kernel

end R3D

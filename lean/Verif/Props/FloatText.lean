import Verif.Lemmas.FloatText
import Verif.Props.Xyz
import Verif.Props.PlyFile
import Verif.Props.StlFile
import Verif.Props.Obj
import Verif.Props.Off
import Verif.Props.PointText

/-!
The round trips of C57, C59, C64, C67, C80 and C90 for all doubles (`Rep`: every value a double can have, including
infinities, NaN and both zeros), with the model of Rust's number formatting instead of an assumption about it.
-/

namespace R3D
open F64 Spec

def Point2D.Double (p : Point2D F64) : Prop := Rep p.x ∧ Rep p.y
def Point3D.Double (p : Point3D F64) : Prop := Rep p.x ∧ Rep p.y ∧ Rep p.z

theorem c57_xyz_f64 (pts : List (Point3D F64)) (hok : ∀ p ∈ pts, p.Double) (d : UInt8) (dc dp : Bytes)
    (hdc : DelimCoord d dc) (hdp : DelimPos dp) :
    loadXyz displayText (saveXyz displayText pts dc dp) = some (pts, .ok ()) :=
  c57_xyz displayText Rep displayText_lawful pts hok d dc dp hdc hdp

theorem c57_xy_f64 (pts : List (Point2D F64)) (hok : ∀ p ∈ pts, p.Double) (d : UInt8) (dc dp : Bytes)
    (hdc : DelimCoord d dc) (hdp : DelimPos dp) :
    loadXy displayText (saveXy displayText pts dc dp) = some (pts, .ok ()) :=
  c57_xy displayText Rep displayText_lawful pts hok d dc dp hdc hdp

theorem c59_ascii_f64 (m : TMesh PlyPoint) (hok : ∀ p ∈ m.verts, Point3D.Double p) (hm : m.WellFormed)
    (hn : m.verts.length < 2 ^ 64) (hf : m.faces.length < 2 ^ 64) :
    LoadsAs displayText (savePlyAscii displayText m) m :=
  c59_ascii displayText Rep displayText_lawful m hok hm hn hf

theorem c59_ascii_colored_f64 (m : TMesh PlyPoint) (hok : ∀ p ∈ m.verts, Point3D.Double p) (hm : m.WellFormed)
    (hn : m.verts.length < 2 ^ 64) (hf : m.faces.length < 2 ^ 64) (colors : List Rgb)
    (hc : colors.length = m.verts.length) :
    ∃ file, savePlyAsciiColored displayText m colors = .ok file ∧ LoadsAs displayText file m :=
  (c59_ascii_colored displayText Rep displayText_lawful m hok hm hn hf colors).1 hc

theorem c67_roundtrip_f64 (m : TMesh (Point3D F64)) (hok : ∀ p ∈ m.verts, p.Double) (hm : m.WellFormed)
    (hn : m.verts.length < 2 ^ 64) :
    loadObjMesh displayText ((objText displayText m).flatMap nl) ⟨[], []⟩ = some (m, .ok ()) :=
  c67_roundtrip displayText Rep displayText_lawful m hok hm hn

theorem c80_roundtrip_f64 (m : TMesh (Point3D F64)) (hok : ∀ p ∈ m.verts, p.Double) (hm : m.WellFormed)
    (hn : m.verts.length < 2 ^ 64) (hf : m.faces.length < 2 ^ 64) :
    loadOffMesh displayText ((offText displayText m).flatMap nl) ⟨[], []⟩ = some (m, .ok ()) :=
  c80_roundtrip displayText Rep displayText_lawful m hok hm hn hf

theorem c90_roundtrip_f64 (p : Point3D F64) (q : Point2D F64) (hp : p.Double) (hq : q.Double) :
    Point3D.parse displayText (p.toStr displayText) = .ok p ∧ Point2D.parse displayText (q.toStr displayText) = .ok q :=
  ⟨c90_roundtrip_3d displayText Rep displayText_lawful p hp, c90_roundtrip_2d displayText Rep displayText_lawful q hq⟩

theorem c90_cloud_f64_partial (ps : List (Point3D F64)) (qs : List (Point2D F64)) (h1 : ps ≠ []) (h2 : qs ≠ [])
    (hp : ∀ p ∈ ps, p.Double) (hq : ∀ p ∈ qs, p.Double) :
    cloudParse (Point3D.parse displayText) (cloudToStr (Point3D.toStr displayText) ps) = .ok ps ∧
    cloudParse (Point2D.parse displayText) (cloudToStr (Point2D.toStr displayText) qs) = .ok qs :=
  ⟨c90_cloud_3d_partial displayText Rep displayText_lawful ps h1 hp,
    c90_cloud_2d_partial displayText Rep displayText_lawful qs h2 hq⟩

theorem norm_rep {p n : Point3D F64} (h : Norm3D.new p = some (.ok n)) : n.Double := by
  unfold Norm3D.new at h
  simp only [Option.bind_eq_bind, Option.bind_eq_some_iff] at h
  obtain ⟨l, -, h⟩ := h
  split_ifs at h
  all_goals simp only [Option.pure_def, Option.some.injEq, reduceCtorEq, Except.ok.injEq] at h
  subst h
  exact ⟨mul_rep _ _, mul_rep _ _, mul_rep _ _⟩

/-- the number formatting of .stl files is the one with exponent -/
theorem c64_roundtrip_f64 (m : TMesh StlPoint) (bs : Bytes) (hs : saveStlAscii lowerExpText m = some bs)
    (hv : ∀ p ∈ m.verts, Point3D.Double p) (format : StlFormat) (hf : format ≠ .Binary) :
    ∃ fs : List (StlFace StlPoint), fs.length = m.numFaces ∧ (∀ i f, fs[i]? = some f → TriangleOf m i f) ∧
      loadStlTriplets lowerExpText bs format [] [] = some ((fs.flatMap corners, fs.map StlFace.n), .ok ()) := by
  refine c64_roundtrip lowerExpText Rep lowerExpText_lawful m bs hs hv (fun i n h => ?_) format hf
  unfold faceNormal at h
  split at h
  · simp at h
  · exact norm_rep h

/-- non-vacuity: all doubles are allowed, the texts are those of Rust -/
example : displayText.fmt (F64.ofRat (1 / 10)) = b!"0.1" ∧ displayText.fmt (F64.ofRat (-100)) = b!"-100" ∧
    lowerExpText.fmt (F64.ofRat (5 / 4)) = b!"1.25e0" ∧ lowerExpText.fmt (F64.ofRat (1 / 1000)) = b!"1e-3" ∧
    displayText.fmt (.fin true 0) = b!"-0" ∧ displayText.fmt .nan = b!"NaN" := by decide +kernel

example : ∃ (p : Point3D F64), p.Double ∧ p.x = .inf false ∧ p.y = .nan :=
  ⟨⟨.inf false, .nan, F64.ofRat (1 / 3)⟩, ⟨trivial, trivial, ofRat_rep _⟩, rfl, rfl⟩

/-- a mesh of doubles for the round trips above -/
example : ∃ m : TMesh (Point3D F64), (∀ p ∈ m.verts, p.Double) ∧ m.WellFormed ∧ m.verts.length < 2 ^ 64 ∧ m.faces.length = 2 ∧
    (saveStlAscii lowerExpText m).isSome := by
  refine ⟨⟨[⟨F64.ofRat 0, F64.ofRat (1 / 10), F64.ofRat 0⟩, ⟨F64.ofRat 1, F64.ofRat 0, F64.ofRat 0⟩, ⟨F64.ofRat 0, F64.ofRat 1, F64.ofRat 7⟩],
    [⟨0, 1, 2⟩, ⟨2, 1, 0⟩]⟩, ?_, ?_, by decide, rfl, by decide +kernel⟩
  · intro p hp
    simp only [List.mem_cons, List.not_mem_nil, or_false] at hp
    rcases hp with rfl | rfl | rfl
    · exact ⟨ofRat_rep 0, ofRat_rep (1 / 10), ofRat_rep 0⟩
    · exact ⟨ofRat_rep 1, ofRat_rep 0, ofRat_rep 0⟩
    · exact ⟨ofRat_rep 0, ofRat_rep 1, ofRat_rep 7⟩
  · unfold TMesh.WellFormed; decide

end R3D

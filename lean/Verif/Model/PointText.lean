import Verif.Model.Text
import Verif.Model.Point
/-!
Points and point clouds as text: `/repo/src/is_2d.rs`, `/repo/src/is_3d.rs`, `/repo/src/is_buildable_2d.rs`,
`/repo/src/is_buildable_3d.rs`, `/repo/src/point_cloud_2d.rs`, `/repo/src/point_cloud_3d.rs`, `/repo/src/skip_empty_string.rs`.

Texts are their UTF-8 bytes: blanks and line breaks are single bytes that occur in no other character, so that splitting a `str` is
splitting its bytes. Number formatting and parsing are the parameter `T` (`f64::to_string`, `f64::from_str`). All errors are
`ErrorKind::ParseError` (`/repo/src/result.rs` L125-L129).
-/
namespace R3D

variable {α : Type}

/-- `Is3D::to_str`, `/repo/src/is_3d.rs` L77-L83 -/
def Point3D.toStr (T : FloatText α) (p : Point3D α) : Bytes := T.fmt p.x ++ b!" " ++ T.fmt p.y ++ b!" " ++ T.fmt p.z

/-- `Is2D::to_str`, `/repo/src/is_2d.rs` L61-L66 -/
def Point2D.toStr (T : FloatText α) (p : Point2D α) : Bytes := T.fmt p.x ++ b!" " ++ T.fmt p.y

/-- `f64::from_str(words.next().ok_or(ErrorKind::ParseError)?)?`: the number and the iterator afterwards; `/repo/src/is_buildable_3d.rs` L83-85 -/
def nextFloat (T : FloatText α) : List Bytes → Res (α × List Bytes)
  | [] => .error .ParseError
  | w :: ws =>
    match T.parse w with
    | none => .error .ParseError
    | some x => .ok (x, ws)

/-- `text.split(c).skip_empty_string()`; `/repo/src/skip_empty_string.rs` L50-L58 skips the empty pieces -/
def pieces (c : UInt8) (text : Bytes) : List Bytes := skipEmpty (splitP (fun b => b == c) text)

/-- `IsBuildable3D::parse`, `/repo/src/is_buildable_3d.rs` L80-L92 -/
def Point3D.parse (T : FloatText α) (text : Bytes) : Res (Point3D α) := do
  let words := pieces 32 text
  let (x, words) ← nextFloat T words
  let (y, words) ← nextFloat T words
  let (z, words) ← nextFloat T words
  if words.head?.isNone then .ok ⟨x, y, z⟩ else .error .ParseError

/-- `IsBuildable2D::parse`, `/repo/src/is_buildable_2d.rs` L71-L82 -/
def Point2D.parse (T : FloatText α) (text : Bytes) : Res (Point2D α) := do
  let words := pieces 32 text
  let (x, words) ← nextFloat T words
  let (y, words) ← nextFloat T words
  if words.head?.isNone then .ok ⟨x, y⟩ else .error .ParseError

/-- `PointCloud3D::to_str`, `/repo/src/point_cloud_3d.rs` L58-L64, and `PointCloud2D::to_str`, `/repo/src/point_cloud_2d.rs` L58-L64;
`toStr` is that of the points -/
def cloudToStr {P : Type} (toStr : P → Bytes) (data : List P) : Bytes := data.foldl (fun result p => result ++ toStr p ++ b!"\n") []

/-- the loop over the lines, `pc` has been pushed so far; `/repo/src/point_cloud_3d.rs` L89-91, `/repo/src/point_cloud_2d.rs` L89-91 -/
def cloudParseLoop {P : Type} (parse : Bytes → Res P) : List Bytes → List P → Res (List P)
  | [], pc => .ok pc
  | l :: ls, pc =>
    match parse l with
    | .error e => .error e
    | .ok p => cloudParseLoop parse ls (pc ++ [p])

/-- `PointCloud3D::parse`, `/repo/src/point_cloud_3d.rs` L85-L96, and `PointCloud2D::parse`, `/repo/src/point_cloud_2d.rs` L85-L96 -/
def cloudParse {P : Type} (parse : Bytes → Res P) (text : Bytes) : Res (List P) := do
  let pc ← cloudParseLoop parse (pieces 10 text) []
  if pc.length = 0 then .error .ParseError else .ok pc

end R3D

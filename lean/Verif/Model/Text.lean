import Verif.Model.Scalar
import Mathlib.Data.List.Basic
/-!
Byte strings and the text utilities all loaders share.

Simplifications:
* a file / `BufRead` is the list of its bytes; reading never fails but for the end of the data
  (`std::io::Error`s of the operating system are not modelled);
* the loaders that only read with `fetch_line` get the list of lines (`lines`), which
  `Props/Text.lean` relates to repeated calls of `fetchLine`.
-/
namespace R3D

/-- `&[u8]` and `Vec<u8>`, e.g. `/repo/src/io/utils.rs` L92 -/
abbrev Bytes := List UInt8

/-- byte string literal, Rust's `b"..."` -/
macro:max "b!" s:str : term => do
  let bs := s.getString.toUTF8.toList
  let elems ← bs.toArray.mapM fun b => `(($(Lean.quote b.toNat) : UInt8))
  `([$elems,*])

/-- `(b as char).is_whitespace()` for a byte: the Unicode white space below U+0100; `/repo/src/io/utils.rs` L106 -/
def isWs (b : UInt8) : Bool :=
  (9 ≤ b.toNat && b.toNat ≤ 13) || b.toNat == 32 || b.toNat == 0x85 || b.toNat == 0xA0

/-- `BufRead::read_until(b'\n', ..)`: the bytes up to and including the next line break, and the rest; `/repo/src/io/utils.rs` L97 -/
def readUntilNl : Bytes → Bytes × Bytes
  | [] => ([], [])
  | b :: s =>
    if b = 10 then ([b], s)
    else let r := readUntilNl s; (b :: r.1, r.2)

/-- `/repo/src/io/utils.rs` L102-113: drops the last byte, whatever it is, and white space before it -/
def cleanLine (buf : Bytes) : Bytes := (buf.dropLast.reverse.dropWhile isWs).reverse

/-- `/repo/src/io/utils.rs` L92-114; `none` is `Err(FetchLineError)` -/
def fetchLine (s : Bytes) : Option (Bytes × Bytes) :=
  let r := readUntilNl s
  if r.1.length = 0 then none else some (cleanLine r.1, r.2)

/-- the buffers `read_until` fills one after the other; repeating `/repo/src/io/utils.rs` L97 -/
def rawLines : Bytes → List Bytes
  | [] => []
  | b :: s =>
    if b = 10 then [b] :: rawLines s
    else match rawLines s with
      | [] => [[b]]
      | l :: ls => (b :: l) :: ls

/-- the lines `fetch_line` returns one after the other; repeating `/repo/src/io/utils.rs` L92-114 -/
def lines (s : Bytes) : List Bytes := (rawLines s).map cleanLine

/-- `slice::split`: the pieces between the bytes satisfying `p`; `/repo/src/utils.rs` L36, L46 -/
def splitP (p : UInt8 → Bool) : Bytes → List Bytes
  | [] => [[]]
  | b :: s =>
    if p b then [] :: splitP p s
    else match splitP p s with
      | [] => [[b]]
      | l :: ls => (b :: l) :: ls

/-- `/repo/src/skip_empty.rs` L53-61 -/
def skipEmpty (l : List Bytes) : List Bytes := l.filter (fun w => !w.isEmpty)

/-- `/repo/src/utils.rs` L35-37 -/
def toWords (line : Bytes) : List Bytes := skipEmpty (splitP (fun b => b == 32 || b == 9) line)

/-- `/repo/src/utils.rs` L45-47 -/
def untilByte (line : Bytes) (d : UInt8) : Bytes := ((splitP (fun b => b == d) line).head?).getD []

/-- `slice::windows(n)` for `n > 0`; `/repo/src/utils.rs` L62 -/
def windows (n : Nat) (l : Bytes) : List Bytes := (List.range (l.length + 1 - n)).map fun i => (l.drop i).take n

/-- `/repo/src/utils.rs` L58-63; `windows(0)` panics -/
def containsBytes (haystack needle : Bytes) : Option Bool :=
  if needle.length = 0 then none
  else some ((windows needle.length haystack).any fun x => x == needle)

/-- `/repo/src/io/utils.rs` L61-71 -/
def trimStart : Bytes → Bytes
  | [] => []
  | b :: s => if b == 32 || b == 9 then trimStart s else b :: s

/-- `/repo/src/utils.rs` L128-135 -/
def estimateDelimiter (minCount : Nat) (line : Bytes) : Option UInt8 :=
  [(32 : UInt8), 59, 44, 9].find? fun d => decide ((line.filter fun c => c == d).length ≥ minCount)

/-- `/repo/src/io/utils.rs` L49-56 -/
def skipN {α : Type} : Nat → List α → List α
  | 0, l => l
  | n + 1, l => skipN n l.tail

/-- `/repo/src/io/utils.rs` L35-45; `none` is an unexpected end -/
def skipBytes : Nat → Bytes → Option Bytes
  | 0, s => some s
  | _ + 1, [] => none
  | n + 1, _ :: s => skipBytes n s

/-! ### numbers as text -/

/-- `usize::to_string`; `/repo/src/io/ply/save.rs` L44 -/
def fmtNat (n : Nat) : Bytes := (Nat.toDigits 10 n).map fun c => c.toNat.toUInt8

/-- value of decimal digits, `none` for any other byte; standard library, used for `/repo/src/io/utils.rs` L82 -/
def digitsVal : Nat → Bytes → Option Nat
  | acc, [] => some acc
  | acc, b :: s => if 48 ≤ b.toNat ∧ b.toNat ≤ 57 then digitsVal (acc * 10 + (b.toNat - 48)) s else none

/-- `usize::from_str`: an optional `+`, at least one digit, no overflow; `/repo/src/io/utils.rs` L82 -/
def parseNat (s : Bytes) : Option Nat :=
  let ds := if s.head? = some 43 then s.tail else s
  if ds = [] then none
  else match digitsVal 0 ds with
    | some n => if n < 2 ^ 64 then some n else none
    | none => none

/-- how floats are written (`to_string`) and read (`f64::from_str`): parameters of the model;
`/repo/src/is_3d.rs` L78-80, `/repo/src/io/utils.rs` L82 -/
structure FloatText (α : Type) where
  fmt : α → Bytes
  parse : Bytes → Option α

/-- bytes that occur in numbers: digits, letters, sign, point; for `/repo/src/is_3d.rs` L78-80 -/
def isNumByte (b : UInt8) : Bool :=
  (48 ≤ b.toNat && b.toNat ≤ 57) || (65 ≤ b.toNat && b.toNat ≤ 90) || (97 ≤ b.toNat && b.toNat ≤ 122) ||
  b.toNat == 43 || b.toNat == 45 || b.toNat == 46

/-- What is assumed about Rust's float formatting, for the numbers in `ok`: the text is not empty, made of
number bytes and parses back to the number; for `/repo/src/is_3d.rs` L78-80 and `/repo/src/io/utils.rs` L82 -/
structure FloatText.Lawful {α : Type} (T : FloatText α) (ok : α → Prop) : Prop where
  parse_fmt : ∀ x, ok x → T.parse (T.fmt x) = some x
  fmt_ne : ∀ x, ok x → T.fmt x ≠ []
  fmt_bytes : ∀ x, ok x → ∀ b ∈ T.fmt x, isNumByte b = true

/-- `/repo/src/io/utils.rs` L77-86 -/
def fromAscii {α : Type} (parse : Bytes → Option α) (s : Bytes) : Option α :=
  if s.all (fun b => decide (b.toNat < 128)) then parse s else none

/-! ### results and iterators -/

/-- `/repo/src/io/types.rs` L85-89 -/
inductive LineInfo (ε : Type) where
  | none (e : ε)
  | index (i : Nat) (e : ε)
  | line (i : Nat) (l : Bytes) (e : ε)
deriving DecidableEq, Repr

/-- `for x in iterator { ip.push(x?) }`: what has been pushed and the result. `none`: the fuel was too small. e.g. `/repo/src/io/xyz.rs` L170-172 -/
def drain {σ ε α : Type} (next : σ → Option (Except ε α) × σ) : Nat → σ → Option (List α × Except ε Unit)
  | 0, _ => none
  | n + 1, s =>
    match next s with
    | (.none, _) => some ([], .ok ())
    | (.some (.error e), _) => some ([], .error e)
    | (.some (.ok a), s') => (drain next n s').map fun r => (a :: r.1, r.2)

/-- decidable equality of results, for `/repo/src/io/types.rs` L41-44 -/
instance {ε α : Type} [DecidableEq ε] [DecidableEq α] : DecidableEq (Except ε α)
  | .ok a, .ok b => if h : a = b then isTrue (by rw [h]) else isFalse (by simpa using h)
  | .error a, .error b => if h : a = b then isTrue (by rw [h]) else isFalse (by simpa using h)
  | .ok _, .error _ => isFalse (by simp)
  | .error _, .ok _ => isFalse (by simp)

end R3D

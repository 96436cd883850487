import Verif.Model.Text
import Verif.Model.F64
import Mathlib.Data.Int.Log
import Mathlib.Data.Rat.Floor

/-!
Numbers as text. `/repo` formats doubles by `to_string` (`/repo/src/io/xyz.rs` L150-154, `/repo/src/io/xy.rs` L140,
`/repo/src/is_2d.rs` L61-65, `/repo/src/is_3d.rs` L77-82, `/repo/src/io/ply/save.rs` L56-60) and by `{:e}`
(`/repo/src/io/stl.rs` L627-632) and reads them by `f64::from_str` (`/repo/src/io/utils.rs` L77-86). These
functions of the Rust standard library are modelled here as documented there: reading is correctly rounded,
writing uses the fewest digits that read back to the number, the closest ones among them, without exponent
(`Display`) or with one (`LowerExp`). The sign of zero is written (Rust 1.53 and later).
-/

namespace R3D

/-- an ASCII digit, standard library, used for `/repo/src/io/utils.rs` L82 -/
def isDigit (b : UInt8) : Bool := 48 ≤ b.toNat && b.toNat ≤ 57

/-! ### reading -/

/-- an optional sign; standard library, used for `/repo/src/io/utils.rs` L82 -/
def parseSign : Bytes → Bool × Bytes
  | [] => (false, [])
  | b :: s => if b = 45 then (true, s) else if b = 43 then (false, s) else (false, b :: s)

/-- the fraction after an optional point; standard library, used for `/repo/src/io/utils.rs` L82 -/
def parseFrac : Bytes → Bytes × Bytes
  | [] => ([], [])
  | b :: s => if b = 46 then (s.takeWhile isDigit, s.dropWhile isDigit) else ([], b :: s)

/-- the exponent, 0 if there is none; standard library, used for `/repo/src/io/utils.rs` L82 -/
def parseExp : Bytes → Option Int
  | [] => some 0
  | b :: s =>
    if b = 101 ∨ b = 69 then
      let (neg, r) := parseSign s
      if r = [] then none else (digitsVal 0 r).map fun x : Nat => if neg then -(x : Int) else (x : Int)
    else none

/-- `Number ::= ( Digit+ | Digit+ '.' Digit* | Digit* '.' Digit+ ) Exp?` of `f64::from_str`: `m` and `e` of m · 10^e;
standard library, used for `/repo/src/io/utils.rs` L82 -/
def parseDec (s : Bytes) : Option (Nat × Int) :=
  let i := s.takeWhile isDigit
  let (f, r) := parseFrac (s.dropWhile isDigit)
  if i = [] ∧ f = [] then none
  else do
    let m ← digitsVal 0 (i ++ f)
    let x ← parseExp r
    return (m, x - f.length)

/-- lower case of a letter; standard library, used for `/repo/src/io/utils.rs` L82 -/
def lowerByte (b : UInt8) : UInt8 := if 65 ≤ b.toNat ∧ b.toNat ≤ 90 then b + 32 else b

/-- `f64::from_str`; standard library, used for `/repo/src/io/utils.rs` L82 -/
def parseF64 (s : Bytes) : Option F64 :=
  let (neg, r) := parseSign s
  let w := r.map lowerByte
  if w = b!"inf" ∨ w = b!"infinity" then some (.inf neg)
  else if w = b!"nan" then some .nan
  else (parseDec r).map fun (m, e) => F64.round neg ((m : ℚ) * (10 : ℚ) ^ e)

/-! ### writing -/

/-- drops zeros at the end of the digits; standard library, used for `/repo/src/is_3d.rs` L78-80 -/
def stripZeros : Nat → Nat → Int → Nat × Int
  | 0, d, e => (d, e)
  | n + 1, d, e => if d % 10 = 0 ∧ d ≠ 0 then stripZeros n (d / 10) (e + 1) else (d, e)

/-- the two decimals with `n` significant digits next to `m`, the closer one first; standard library, used for `/repo/src/is_3d.rs` L78-80 -/
def decCandidates (m : ℚ) (n : Nat) : List (Nat × Int) :=
  let e : Int := Int.log 10 m - n + 1
  let t := m / (10 : ℚ) ^ e
  let lo := ⌊t⌋.toNat
  if t - lo ≤ lo + 1 - t then [(lo, e), (lo + 1, e)] else [(lo + 1, e), (lo, e)]

/-- does d · 10^e read back to `m`?; standard library, used for `/repo/src/is_3d.rs` L78-80 -/
def readsBack (m : ℚ) (c : Nat × Int) : Bool := decide (F64.round false ((c.1 : ℚ) * (10 : ℚ) ^ c.2) = .fin false m)

/-- the shortest decimal that reads back to `m`; 17 digits are enough for doubles, the last case (all digits) is
there to have a total function; standard library, used for `/repo/src/is_3d.rs` L78-80 -/
def shortest (m : ℚ) : Nat × Int :=
  match ((List.range 17).flatMap fun n => decCandidates m (n + 1)).find? (readsBack m) with
  | some c => stripZeros 20 c.1 c.2
  | none => (⌊m * (10 : ℚ) ^ (1074 : Int)⌋.toNat, -1074)

/-- d · 10^e without exponent; standard library, used for `/repo/src/is_3d.rs` L78-80 -/
def decText (d : Nat) (e : Int) : Bytes :=
  let ds := fmtNat d
  if 0 ≤ e then ds ++ List.replicate e.toNat 48
  else
    let f := (-e).toNat
    if f < ds.length then ds.take (ds.length - f) ++ b!"." ++ ds.drop (ds.length - f)
    else b!"0." ++ List.replicate (f - ds.length) 48 ++ ds

/-- text of an integer; standard library, used for `/repo/src/io/stl.rs` L631 -/
def fmtInt (i : Int) : Bytes := if i < 0 then b!"-" ++ fmtNat (-i).toNat else fmtNat i.toNat

/-- d · 10^e with one digit before the point and an exponent; standard library, used for `/repo/src/io/stl.rs` L631 -/
def expText (d : Nat) (e : Int) : Bytes :=
  let ds := fmtNat d
  ds.take 1 ++ (if ds.length ≤ 1 then [] else b!"." ++ ds.drop 1) ++ b!"e" ++ fmtInt (e + (ds.length - 1 : Nat))

/-- sign, infinity and NaN around a text for positive numbers; standard library, used for `/repo/src/is_3d.rs` L78-80 -/
def fmtF64With (text : Nat → Int → Bytes) : F64 → Bytes
  | .nan => b!"NaN"
  | .inf s => (if s then b!"-" else []) ++ b!"inf"
  | .fin s m => (if s then b!"-" else []) ++ (if m = 0 then text 0 0 else text (shortest m).1 (shortest m).2)

/-- `f64::to_string` and `f64::from_str`; `/repo/src/is_3d.rs` L78-80, `/repo/src/io/utils.rs` L82 -/
def displayText : FloatText F64 := ⟨fmtF64With decText, parseF64⟩
/-- `{:e}` and `f64::from_str`; `/repo/src/io/stl.rs` L631, `/repo/src/io/utils.rs` L82 -/
def lowerExpText : FloatText F64 := ⟨fmtF64With expText, parseF64⟩

end R3D

import Verif.Model.Scalar
/-
A concrete model of IEEE-754 binary64 with round-to-nearest-even, as used by Rust's `f64`
(std / hardware, not part of /repo). NaN payloads and signs are not modelled.
-/
namespace R3D

/-- `fin neg mag` is the finite number `± mag` (`neg = true` is minus; zero has both signs).
Every operation rounds its result to a binary64 number. The type `f64`, e.g. `/repo/src/point_3d.rs` L39-43 -/
inductive F64 where
  | nan
  | inf (neg : Bool)
  | fin (neg : Bool) (mag : ℚ)
deriving DecidableEq, Repr

namespace F64

/-- `⌊log2 q⌋` for `q > 0`; standard library, used e.g. in `/repo/src/is_3d.rs` L92-94 -/
def ilog2 (q : ℚ) : Int :=
  let k : Int := (Nat.log2 q.num.natAbs : Int) - (Nat.log2 q.den : Int)
  if q < (2 : ℚ) ^ k then k - 1 else k

/-- round half to even to an integer, for `q ≥ 0`; standard library, used e.g. in `/repo/src/is_3d.rs` L92-94 -/
def roundEven (q : ℚ) : Int :=
  let n := q.num / q.den
  let r := q - n
  if r < 1 / 2 then n else if 1 / 2 < r then n + 1 else if n % 2 = 0 then n else n + 1

/-- magnitude `q ≥ 0` rounded to binary64, infinite on overflow; standard library, used e.g. in `/repo/src/is_3d.rs` L92-94 -/
def round (neg : Bool) (q : ℚ) : F64 :=
  if q ≤ 0 then .fin neg 0
  else
    let e := max (ilog2 q - 52) (-1074)
    let m : ℚ := (roundEven (q * (2 : ℚ) ^ (-e)) : ℚ) * (2 : ℚ) ^ e
    if (2 : ℚ) ^ (1024 : Int) ≤ m then .inf neg else .fin neg m

/-- a rational rounded to binary64 (+0 for 0); literals and casts, e.g. `/repo/src/factory_2d.rs` L62 -/
def ofRat (q : ℚ) : F64 := if q < 0 then round true (-q) else round false q

/-- value of a finite number; for `/repo/src/is_3d.rs` L92-94 -/
def val (neg : Bool) (mag : ℚ) : ℚ := if neg then -mag else mag

/-- `-x`, standard library, used e.g. in `/repo/src/matrix4.rs` L93 -/
def neg : F64 → F64
  | .nan => .nan
  | .inf s => .inf (!s)
  | .fin s m => .fin (!s) m

/-- `f64::abs`, standard library, used e.g. in `/repo/src/bounding_box_3d.rs` L198 -/
def abs : F64 → F64
  | .nan => .nan
  | .inf _ => .inf false
  | .fin _ m => .fin false m

/-- `+`, standard library, used e.g. in `/repo/src/is_3d.rs` L92-94 -/
def add : F64 → F64 → F64
  | .nan, _ => .nan
  | _, .nan => .nan
  | .inf s, .inf t => if s = t then .inf s else .nan
  | .inf s, _ => .inf s
  | _, .inf t => .inf t
  | .fin s m, .fin t n =>
    let q := val s m + val t n
    if q = 0 then .fin (s && t) 0 else ofRat q

/-- `-`, standard library, used e.g. in `/repo/src/is_3d.rs` L92-94 -/
def sub (a b : F64) : F64 := add a (neg b)

/-- `*`, standard library, used e.g. in `/repo/src/is_3d.rs` L92-94 -/
def mul : F64 → F64 → F64
  | .nan, _ => .nan
  | _, .nan => .nan
  | .inf s, .inf t => .inf (xor s t)
  | .inf s, .fin t n => if n = 0 then .nan else .inf (xor s t)
  | .fin s m, .inf t => if m = 0 then .nan else .inf (xor s t)
  | .fin s m, .fin t n => round (xor s t) (m * n)

/-- `/`, standard library, used e.g. in `/repo/src/is_3d.rs` L74 -/
def div : F64 → F64 → F64
  | .nan, _ => .nan
  | _, .nan => .nan
  | .inf _, .inf _ => .nan
  | .inf s, .fin t _ => .inf (xor s t)
  | .fin s _, .inf t => .fin (xor s t) 0
  | .fin s m, .fin t n =>
    if n = 0 then (if m = 0 then .nan else .inf (xor s t)) else round (xor s t) (m / n)

/-- integer square root by bisection over the bits below `2^k`; for `/repo/src/is_3d.rs` L66 -/
def isqrt (n : Nat) : Nat → Nat → Nat
  | 0, acc => acc
  | k + 1, acc => if (acc + 2 ^ k) * (acc + 2 ^ k) ≤ n then isqrt n k (acc + 2 ^ k) else isqrt n k acc

/-- correctly rounded: at least 55 exact bits plus a sticky half; for `/repo/src/is_3d.rs` L66 -/
def sqrtMag (q : ℚ) : F64 :=
  if q ≤ 0 then .fin false 0
  else
    let k := max 0 (56 - ilog2 q / 2)
    let x := q * (4 : ℚ) ^ k
    let n := (x.num / x.den).toNat
    let s := isqrt n (Nat.log2 n / 2 + 1) 0
    round false ((s + if (s * s : ℚ) = x then 0 else 1 / 2) * (2 : ℚ) ^ (-k))

/-- `f64::sqrt`, standard library, used e.g. in `/repo/src/is_3d.rs` L66 -/
def sqrt : F64 → F64
  | .nan => .nan
  | .inf s => if s then .nan else .inf false
  | .fin s m => if m = 0 then .fin s 0 else if s then .nan else sqrtMag m

/-- `<`, standard library, used e.g. in `/repo/src/aa_bb_tree_2d.rs` L145 -/
def lt : F64 → F64 → Bool
  | .nan, _ => false
  | _, .nan => false
  | .inf s, .inf t => s && !t
  | .inf s, .fin _ _ => s
  | .fin _ _, .inf t => !t
  | .fin s m, .fin t n => decide (val s m < val t n)

/-- `==`, standard library, used e.g. in `/repo/src/functions.rs` L80 -/
def eq : F64 → F64 → Bool
  | .nan, _ => false
  | _, .nan => false
  | .inf s, .inf t => s == t
  | .inf _, .fin _ _ => false
  | .fin _ _, .inf _ => false
  | .fin s m, .fin t n => decide (val s m = val t n)

/-- `<=`, standard library, used e.g. in `/repo/src/aa_bb_tree_2d.rs` L153 -/
def le (a b : F64) : Bool := lt a b || eq a b

/-- Rust `as`: saturating truncation; `/repo/src/cluster_vertices.rs` L47-49 -/
def toNatSat (max : Nat) : F64 → Nat
  | .nan => 0
  | .inf s => if s then 0 else max
  | .fin s m => if s then 0 else min max (m.num / m.den).toNat

end F64

/-- the operations of `f64`, e.g. `/repo/src/is_3d.rs` L66, L92-94 -/
instance instScalarF64 : Scalar F64 where
  add := F64.add
  sub := F64.sub
  mul := F64.mul
  div := F64.div
  neg := F64.neg
  lit := F64.ofRat
  abs := F64.abs
  sqrt := F64.sqrt
  lt := F64.lt
  le := F64.le
  eq := F64.eq
  toNatSat := F64.toNatSat

end R3D

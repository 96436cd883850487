import Verif.Model.Text
import Verif.Model.F64
/-!
Reading numbers from bytes: `/repo/src/io/byte_reader.rs`, `/repo/src/io/from_bytes.rs`, and the conversions of the Rust
standard library they call (`from_le_bytes`, `from_be_bytes`, `to_be_bytes`, `as f32`, `as f64`).

A reader is the list of the bytes left. NaN is one value, so that its payload is lost.
-/
namespace R3D

/-! ### standard library -/

/-- `Read::read_exact` on a buffer of `n` bytes; `none` is the error at the end of the data;
`/repo/src/io/byte_reader.rs` L84 and the other readers -/
def readExact (n : Nat) (s : Bytes) : Option (Bytes × Bytes) :=
  if n ≤ s.length then some (s.take n, s.drop n) else none

/-- the number with the little endian digits `bs`; standard library, used for `/repo/src/io/byte_reader.rs` L95 -/
def leNat : Bytes → Nat
  | [] => 0
  | b :: bs => b.toNat + 256 * leNat bs

/-- byte order; `/repo/src/io/byte_reader.rs` L77-178 (little), L184-285 (big) -/
inductive Endian where
  | little
  | big
deriving DecidableEq, Repr

/-- `uN::from_le_bytes` / `uN::from_be_bytes`; `/repo/src/io/byte_reader.rs` L95, L115, L135, L165, L202, L222, L242, L272 -/
def natOfBytes : Endian → Bytes → Nat
  | .little, bs => leNat bs
  | .big, bs => leNat bs.reverse

/-- `iN::from_le_bytes` / `iN::from_be_bytes`: two's complement; `/repo/src/io/byte_reader.rs` L85, L105, L125, L155, L192, L212, L232, L262 -/
def intOfBytes (e : Endian) (bs : Bytes) : Int :=
  if 2 * natOfBytes e bs < 256 ^ bs.length then natOfBytes e bs else (natOfBytes e bs : Int) - 256 ^ bs.length

/-- the `w` little endian digits of `n`; standard library, used for `/repo/src/io/ply/save.rs` L214 -/
def leBytes : Nat → Nat → Bytes
  | 0, _ => []
  | w + 1, n => UInt8.ofNat n :: leBytes w (n / 256)

/-- `to_le_bytes` / `to_be_bytes` of an unsigned number of `w` bytes; `/repo/src/io/ply/save.rs` L213-216 -/
def bytesOfNat : Endian → Nat → Nat → Bytes
  | .little, w, n => leBytes w n
  | .big, w, n => (leBytes w n).reverse

namespace F64

/-- exponent of the smallest positive number of a format with `mw` fraction and `ew` exponent bits;
standard library, used for `/repo/src/io/byte_reader.rs` L145, L175 -/
def emin (mw ew : Nat) : Int := 2 - 2 ^ (ew - 1) - mw

/-- the number with the IEEE bits `n` (`mw` fraction bits, `ew` exponent bits, one sign bit);
standard library, used for `/repo/src/io/byte_reader.rs` L145, L175 -/
def ofBits (mw ew n : Nat) : F64 :=
  let s := decide (2 ^ (mw + ew) ≤ n)
  let e := n / 2 ^ mw % 2 ^ ew
  let m := n % 2 ^ mw
  if e = 2 ^ ew - 1 then (if m = 0 then .inf s else .nan)
  else if e = 0 then .fin s ((m : ℚ) * (2 : ℚ) ^ emin mw ew)
  else .fin s (((2 ^ mw + m : Nat) : ℚ) * (2 : ℚ) ^ ((e : Int) - 1 + emin mw ew))

/-- exponent of the last fraction bit of `q > 0`; standard library, used for `/repo/src/io/ply/save.rs` L195, L204 -/
def ulp (mw ew : Nat) (q : ℚ) : Int := max (ilog2 q - mw) (emin mw ew)

/-- the sign bit; standard library, used for `/repo/src/io/ply/save.rs` L195, L204 -/
def signBit (mw ew : Nat) (s : Bool) : Nat := if s then 2 ^ (mw + ew) else 0

/-- the IEEE bits of a number of the format; `nan` is the quiet NaN; standard library, used for `/repo/src/io/ply/save.rs` L195, L204 -/
def toBits (mw ew : Nat) : F64 → Nat
  | .nan => (2 ^ ew - 1) * 2 ^ mw + 2 ^ (mw - 1)
  | .inf s => signBit mw ew s + (2 ^ ew - 1) * 2 ^ mw
  | .fin s q => signBit mw ew s +
      if q ≤ 0 then 0 else (ulp mw ew q - emin mw ew).toNat * 2 ^ mw + (q * (2 : ℚ) ^ (-ulp mw ew q)).num.natAbs

/-- `x as f32` (as the `f64` with the same value): round to nearest, ties to even; `/repo/src/io/ply/save.rs` L195-197 -/
def toF32 : F64 → F64
  | .fin s q =>
    if q ≤ 0 then .fin s 0
    else
      let m : ℚ := (roundEven (q * (2 : ℚ) ^ (-ulp 23 8 q)) : ℚ) * (2 : ℚ) ^ ulp 23 8 q
      if (2 : ℚ) ^ (128 : Int) ≤ m then .inf s else .fin s m
  | x => x

/-- `f32::from_le_bytes(..) as f64` / `from_be_bytes`; `/repo/src/io/byte_reader.rs` L145, L252 -/
def ofBytes32 (e : Endian) (bs : Bytes) : F64 := ofBits 23 8 (natOfBytes e bs)

/-- `f64::from_le_bytes` / `from_be_bytes`; `/repo/src/io/byte_reader.rs` L175, L282 -/
def ofBytes64 (e : Endian) (bs : Bytes) : F64 := ofBits 52 11 (natOfBytes e bs)

/-- `(x as f32).to_le_bytes()` / `to_be_bytes`; `/repo/src/io/ply/save.rs` L195-197 -/
def toBytes32 (e : Endian) (x : F64) : Bytes := bytesOfNat e 4 (toBits 23 8 (toF32 x))

/-- `x.to_le_bytes()` / `to_be_bytes`; `/repo/src/io/ply/save.rs` L204-206 -/
def toBytes64 (e : Endian) (x : F64) : Bytes := bytesOfNat e 8 (toBits 52 11 x)

end F64

/-! ### byte_reader.rs -/

/-- `LittleReader::read_u8`, `_u16`, `_u32`, `_u64` (`/repo/src/io/byte_reader.rs` L77-L177) and `BigReader` (L184-L284);
`w` is the size of the type -/
def readNat (e : Endian) (w : Nat) (s : Bytes) : Option (Nat × Bytes) :=
  match readExact w s with
  | none => none
  | some (bs, rest) => some (natOfBytes e bs, rest)

/-- `read_i8`, `_i16`, `_i32`, `_i64`, same lines;
`/repo/src/io/byte_reader.rs` L79-86, L99-106, L119-126, L149-156, L186-193, L206-213, L226-233, L256-263 -/
def readInt (e : Endian) (w : Nat) (s : Bytes) : Option (Int × Bytes) :=
  match readExact w s with
  | none => none
  | some (bs, rest) => some (intOfBytes e bs, rest)

/-- `read_f32`, widened to `f64`; `/repo/src/io/byte_reader.rs` L139-146, L246-253 -/
def readF32 (e : Endian) (s : Bytes) : Option (F64 × Bytes) :=
  match readExact 4 s with
  | none => none
  | some (bs, rest) => some (F64.ofBytes32 e bs, rest)

/-- `read_f64`; `/repo/src/io/byte_reader.rs` L169-176, L276-283 -/
def readF64 (e : Endian) (s : Bytes) : Option (F64 × Bytes) :=
  match readExact 8 s with
  | none => none
  | some (bs, rest) => some (F64.ofBytes64 e bs, rest)

/-! ### from_bytes.rs -/

/-- `/repo/src/io/from_bytes.rs` L228-L231 -/
inductive FromBytesError where
  | BinaryData
  | SizeMismatch
deriving DecidableEq, Repr

/-- `FromBytes::from_le_slice` / `from_be_slice` (`/repo/src/io/from_bytes.rs` L108-L223) for a type of `w` bytes decoded by `dec`;
`try_into` fails on slices of another length -/
def fromSlice {β : Type} (w : Nat) (dec : Bytes → β) (bs : Bytes) : Except FromBytesError β :=
  if bs.length = w then .ok (dec bs) else .error .BinaryData

/-- the loop `for i in 0..n { arr[i] = from_slice(&bytes[i * size..(i + 1) * size])? }`, starting at `i`; slicing beyond the
end panics; `/repo/src/io/from_bytes.rs` L38-40, L55-57, L77-79 -/
def fromSlices {β : Type} (w : Nat) (dec : Bytes → β) (bs : Bytes) : Nat → Nat → Panics (Except FromBytesError (List β))
  | _, 0 => some (.ok [])
  | i, n + 1 =>
    if (i + 1) * w ≤ bs.length then
      match fromSlice w dec ((bs.drop (i * w)).take w) with
      | .error e => some (.error e)
      | .ok x =>
        match fromSlices w dec bs (i + 1) n with
        | none => none
        | some (.error e) => some (.error e)
        | some (.ok xs) => some (.ok (x :: xs))
    else none

/-- `array_from_bytes_le!` (`/repo/src/io/from_bytes.rs` L30-L44), `array_from_bytes_be!` (L47-L61) and `slice_from_bytes_le`
(L67-L82) with a target of `n` elements -/
def arrayFromBytes {β : Type} (w : Nat) (dec : Bytes → β) (n : Nat) (bs : Bytes) : Panics (Except FromBytesError (List β)) :=
  if bs.length ≠ w * n then some (.error .SizeMismatch) else fromSlices w dec bs 0 n

/-- `slice_from_bytes_be` (`/repo/src/io/from_bytes.rs` L88-L103) with a target of `n` elements; the size check has the factor
on the wrong side -/
def sliceFromBytesBe {β : Type} (w : Nat) (dec : Bytes → β) (n : Nat) (bs : Bytes) : Panics (Except FromBytesError (List β)) :=
  if w * bs.length ≠ n then some (.error .SizeMismatch) else fromSlices w dec bs 0 n

end R3D

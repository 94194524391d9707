import Verif.Model.Dialect
/-
Python's `struct` module, restricted to little-endian formats (`'<...'`) with the codes used by the
dialect and by protocol_meta/protocol_meta.py:10-12. This is standard-library behaviour, not code of /repo;
it is part of the trusted reading.

Simplification: a `float` field value is represented by its 32-bit pattern, i.e. `struct.pack('<f', x)` is
modelled only for values `x` that are exactly representable in single precision, and `struct.unpack` as the
inverse. Conversion of other doubles (rounding / OverflowError) is not modelled.
-/

namespace NR

/-- A value produced / consumed by `struct`: an int, a single-precision float pattern, or bytes. -/
inductive Val where
  | int (i : Int)
  | flt (bits : BitVec 32)
  | raw (bs : List Byte)
  deriving DecidableEq, Repr

/-- One item of an expanded format: a scalar of a C type (`Q q I i f H h B b c`) or `ns`. -/
inductive FmtItem where
  | scalar (t : CType)
  | str (n : Nat)
  deriving DecidableEq, Repr

/-- Format code of a scalar: the second character of the values of `format_strings`,
protocol_meta/protocol_meta.py:10-13 (`inv_format_strings`). -/
def codeType : Char → Option CType
  | 'Q' => some .u64 | 'q' => some .i64 | 'I' => some .u32 | 'i' => some .i32 | 'f' => some .f32
  | 'H' => some .u16 | 'h' => some .i16 | 'B' => some .u8 | 'b' => some .i8 | 'c' => some .char
  | _ => none

/-- Expansion of a format string (after `'<'`): an optional repeat count followed by a code;
for `s` the count is a length. `none` models `struct.error: bad char`. -/
def parseFmt : List Char → Option Nat → Option (List FmtItem)
  | [], none => some []
  | [], some _ => none
  | c :: cs, acc =>
    if c.isDigit then parseFmt cs (some (acc.getD 0 * 10 + (c.toNat - '0'.toNat)))
    else if c = 's' then (parseFmt cs none).map (FmtItem.str (acc.getD 1) :: ·)
    else match codeType c with
      | some t => (parseFmt cs none).map (List.replicate (acc.getD 1) (FmtItem.scalar t) ++ ·)
      | none => none

/-- `struct.Struct(format)`: only formats starting with `'<'` occur in the dialect. -/
def structFmt : List Char → Option (List FmtItem)
  | '<' :: cs => parseFmt cs none
  | _ => none

/-- Size in bytes of a scalar (standard sizes; also `field_lengths`, protocol_meta/protocol_meta.py:8-9). -/
def CType.size : CType → Nat
  | .u64 => 8 | .i64 => 8 | .u32 => 4 | .i32 => 4 | .f32 => 4 | .u16 => 2 | .i16 => 2
  | .u8 => 1 | .i8 => 1 | .char => 1

def FmtItem.size : FmtItem → Nat
  | .scalar t => t.size
  | .str n => n

/-- `struct.calcsize` (no alignment in `'<'` mode). -/
def calcsize (fmt : List FmtItem) : Nat := (fmt.map FmtItem.size).sum

/-- Little-endian bytes of a natural number. -/
def leBytes : Nat → Nat → List Byte
  | 0, _ => []
  | k + 1, v => BitVec.ofNat 8 v :: leBytes k (v / 256)

/-- Little-endian value of bytes. -/
def leNat : List Byte → Nat
  | [] => 0
  | b :: bs => b.toNat + 256 * leNat bs

/-- Is the type a signed / unsigned integer type? -/
def CType.isUInt : CType → Bool
  | .u64 | .u32 | .u16 | .u8 => true
  | _ => false

def CType.isSInt : CType → Bool
  | .i64 | .i32 | .i16 | .i8 => true
  | _ => false

/-- `struct.pack('<c', v)` for one scalar type. -/
def packScalar (t : CType) (v : Val) : Except PyErr (List Byte) :=
  match t, v with
  | .f32, .flt b => .ok (leBytes 4 b.toNat)
  | .char, .raw [b] => .ok [b]
  | t, .int i =>
    if t.isUInt then
      if 0 ≤ i ∧ i < 2 ^ (8 * t.size) then .ok (leBytes t.size i.toNat) else .error .structError
    else if t.isSInt then
      if -(2 ^ (8 * t.size - 1)) ≤ i ∧ i < 2 ^ (8 * t.size - 1) then
        .ok (leBytes t.size (i % 2 ^ (8 * t.size)).toNat)
      else .error .structError
    else .error .structError
  | _, _ => .error .structError

/-- Packing of one format item; `ns` pads with NULs / truncates to `n` bytes. -/
def packItem (it : FmtItem) (v : Val) : Except PyErr (List Byte) :=
  match it, v with
  | .scalar t, v => packScalar t v
  | .str n, .raw bs => .ok ((bs ++ List.replicate n 0).take n)
  | .str _, _ => .error .structError

/-- `struct.pack(fmt, *vals)`; a wrong number of values is a `struct.error`. -/
def structPack : List FmtItem → List Val → Except PyErr (List Byte)
  | [], [] => .ok []
  | it :: its, v :: vs => do
    let a ← packItem it v
    let b ← structPack its vs
    .ok (a ++ b)
  | _, _ => .error .structError

/-- Interpretation of the bytes of one scalar. -/
def unpackScalar (t : CType) (bs : List Byte) : Val :=
  match t with
  | .f32 => .flt (BitVec.ofNat 32 (leNat bs))
  | .char => .raw bs
  | t =>
    let n := leNat bs
    if t.isSInt ∧ 2 ^ (8 * t.size - 1) ≤ n then .int ((n : Int) - 2 ^ (8 * t.size)) else .int n

def unpackItem (it : FmtItem) (bs : List Byte) : Val :=
  match it with
  | .scalar t => unpackScalar t bs
  | .str _ => .raw bs

/-- Sequential interpretation of the items. -/
def unpackItems : List FmtItem → List Byte → List Val
  | [], _ => []
  | it :: its, bs => unpackItem it (bs.take it.size) :: unpackItems its (bs.drop it.size)

/-- `struct.unpack(fmt, bs)`: the buffer must have exactly `calcsize` bytes. -/
def structUnpack (fmt : List FmtItem) (bs : List Byte) : Except PyErr (List Val) :=
  if bs.length = calcsize fmt then .ok (unpackItems fmt bs) else .error .structError

end NR

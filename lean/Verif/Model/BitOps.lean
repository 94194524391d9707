import Verif.Model.Py
/-
Model of utils/bit_operations.py.
-/

namespace NR

/-- Operands of `hamming_distance` (bit_operations.py:8-10): a `bitstring.Bits`, `bytes`, `int`,
a numpy array of integers, or anything else. -/
inductive HamArg where
  | bits (b : List Bool)
  | bytes (b : List Byte)
  | int (i : Int)
  | array (a : List Int)
  | other
  deriving DecidableEq

/-- The `len` low-order bits of a natural, most significant first
(`bitstring.Bits(uint=n, length=len)` for `n < 2^len`). -/
def uintBits : Nat → Nat → List Bool
  | 0, _ => []
  | k + 1, n => n.testBit k :: uintBits k n

/-- Coercion of one operand to `bitstring.Bits`, bit_operations.py:19-32. `Bits(uint=.., length=..)` raises
`CreationError` if the value is negative, does not fit, or the length is zero; `Bits(auto=ndarray)` takes the truth value of each
element. -/
def toBits (uintLen : Nat) : HamArg → Except PyErr (List Bool)
  | .bits b => .ok b
  | .bytes b => .ok (bytesBits b)
  | .int i =>
    if 0 < uintLen ∧ 0 ≤ i ∧ i < 2 ^ uintLen then .ok (uintBits uintLen i.toNat) else .error .creationError
  | .array a => .ok (a.map (fun x => x != 0))
  | .other => .error .typeError

/-- `hamming_distance`, bit_operations.py:8-33. `a ^ b` of `Bits` of different lengths raises ValueError.
Simplification: the order in which the two operands are coerced is a, then b; in the code the `other` check
(line 31) comes after the coercions (lines 19-30), so a coercion error of `b` wins over a TypeError caused by
`a`; this is reflected below. -/
def hammingDistance (a b : HamArg) (uintLen : Nat := 8) : Except PyErr Nat := do
  match a, b with
  | .other, .int i => let _ ← toBits uintLen (.int i); .error .typeError
  | _, _ =>
    let x ← toBits uintLen a
    let y ← toBits uintLen b
    if x.length = y.length then .ok ((List.zipWith xor x y).count true) else .error .valueError

end NR

/-
Basic Python notions shared by the model: exceptions as values, bytes, slices.
These model the Python language / standard library, not lines of /repo.
-/

namespace NR

/-- A byte (element of Python `bytes`, `bytearray`, `array("B")`). -/
abbrev Byte := BitVec 8

/-- Exception classes that can escape from the modelled code. One constructor per Python class. -/
inductive PyErr where
  | typeError
  | valueError
  | indexError
  | keyError
  | attributeError
  | unboundLocalError
  | nameError
  | zeroDivisionError
  | runtimeError
  | overflowError
  /-- `bitstring.CreationError` -/
  | creationError
  /-- `struct.error` -/
  | structError
  /-- `utils/custom_exceptions.py:5` -/
  | nonUint8
  /-- `utils/custom_exceptions.py:14` -/
  | incorrectBufferLength
  /-- `utils/custom_exceptions.py:19` -/
  | unsupportedDtype
  /-- `protocol_meta/msg_header.py:10` -/
  | headerLength
  /-- `protocol_meta/msg_header.py:15` -/
  | nonExistentMsdId
  /-- `mavlink_utils/HC_dialect.py:8550` -/
  | mavError
  /-- `numpy.linalg.LinAlgError` -/
  | linAlgError
  deriving DecidableEq, Repr

/-- Python slice `l[i:j]` for non-negative `i`, `j` (both may exceed the length). -/
def pySlice {α : Type _} (l : List α) (i j : Nat) : List α := (l.take j).drop i

/-- Slice assignment `a[i:j] = v` of a scalar to a numpy array, `0 ≤ i`, `0 ≤ j`
(positions outside the array are ignored). -/
def setSlice {α : Type _} (l : List α) (i j : Nat) (v : α) : List α :=
  l.mapIdx fun k x => if i ≤ k ∧ k < j then v else x

/-- `l[-w:]` for `w ≥ 1`: the last `w` elements; note that Python's `l[-0:]` is the whole list. -/
def pyLast {α : Type _} (l : List α) (w : Nat) : List α :=
  if w = 0 then l else l.drop (l.length - w)

deriving instance DecidableEq for Except

/-- `Except.isOk`-style test used in statements: the call returned normally. -/
def Returns {α : Type _} (x : Except PyErr α) : Prop := ∃ a, x = .ok a

instance {α : Type _} (x : Except PyErr α) : Decidable (Returns x) :=
  match x with
  | .ok a => isTrue ⟨a, rfl⟩
  | .error _ => isFalse (by rintro ⟨a, h⟩; cases h)

/-- The call raised the exception `e`. -/
abbrev Raises {α : Type _} (x : Except PyErr α) (e : PyErr) : Prop := x = .error e

/-- MSB-first bits of a byte (`np.unpackbits`, `bitstring.Bits(bytes=...)`). -/
def byteBits (b : Byte) : List Bool :=
  [b.getLsbD 7, b.getLsbD 6, b.getLsbD 5, b.getLsbD 4, b.getLsbD 3, b.getLsbD 2, b.getLsbD 1, b.getLsbD 0]

/-- MSB-first bits of a byte string. -/
def bytesBits (bs : List Byte) : List Bool := bs.flatMap byteBits

end NR

import Verif.Model.Mavlink
import Mathlib.Data.List.Forall2
/-
Specification vocabulary for messages on the wire.
-/
namespace NR.Spec
open NR

/-- A Python value that fits a scalar wire type. -/
def FitsScalar : CType → Val → Prop
  | .u8, .int i => 0 ≤ i ∧ i ≤ 255
  | .u16, .int i => 0 ≤ i ∧ i ≤ 65535
  | .u32, .int i => 0 ≤ i ∧ i ≤ 4294967295
  | .u64, .int i => 0 ≤ i ∧ i ≤ 18446744073709551615
  | .i8, .int i => -128 ≤ i ∧ i ≤ 127
  | .i16, .int i => -32768 ≤ i ∧ i ≤ 32767
  | .i32, .int i => -2147483648 ≤ i ∧ i ≤ 2147483647
  | .i64, .int i => -9223372036854775808 ≤ i ∧ i ≤ 9223372036854775807
  | .f32, .flt _ => True
  | .char, .raw bs => bs.length = 1
  | _, _ => False

instance (t : CType) (v : Val) : Decidable (FitsScalar t v) := by
  cases t <;> cases v <;> unfold FitsScalar <;> infer_instance

/-- A field value that fits a field of type `t` with array length `n` (`0` = not an array). Character arrays
take any byte string (`struct` pads or cuts it). -/
def FitsField (t : CType) (n : Nat) : FieldVal → Prop
  | .num (.raw bs) => t = .char ∧ (n = 0 → bs.length = 1)
  | .num v => t ≠ .char ∧ n = 0 ∧ FitsScalar t v
  | .arr vs => t ≠ .char ∧ 0 < n ∧ vs.length = n ∧ ∀ v ∈ vs, FitsScalar t v
  | .text _ => False

instance (t : CType) (n : Nat) (v : FieldVal) : Decidable (FitsField t n v) := by
  rcases v with v | vs | bs
  · cases v <;> unfold FitsField <;> infer_instance
  · unfold FitsField; infer_instance
  · unfold FitsField; infer_instance

/-- The field values of a message of class `m` (in constructor order) are in range. -/
def WellTyped (m : MsgClass) (fields : List FieldVal) : Prop :=
  fields.length = m.fieldnames.length ∧
  ∀ i < m.fieldnames.length, FitsField (m.fieldtypes.getD i .char) (m.arrayLengths.getD (m.orders.getD i 0) 0)
    (fields.getD i (.text []))

instance (m : MsgClass) (fields : List FieldVal) : Decidable (WellTyped m fields) := by
  unfold WellTyped; infer_instance

/-- The class has no array field. -/
def NoArrays (m : MsgClass) : Prop := ∀ n ∈ m.arrayLengths, n = 0

instance (m : MsgClass) : Decidable (NoArrays m) := by unfold NoArrays; infer_instance

/-- What a packed field value comes back as: numbers and numeric arrays unchanged; a character array, padded with
NULs or cut to its length, comes back as text up to the first NUL, or `'_XXX'` if it is not UTF-8. -/
def received (n : Nat) : FieldVal → FieldVal
  | .num (.raw bs) =>
    let padded := (bs ++ List.replicate n 0).take (if n = 0 then 1 else n)
    .text (if utf8Valid padded then padded.takeWhile (· ≠ 0) else xxxText)
  | v => v

/-- All fields of a message after a trip over the wire. -/
def receivedFields (m : MsgClass) (fields : List FieldVal) : List FieldVal :=
  fields.mapIdx fun i v => received (m.arrayLengths.getD (m.orders.getD i 0) 0) v

/-- Width in bytes of a scalar on the wire. -/
def width : CType → Nat
  | .u8 | .i8 | .char => 1
  | .u16 | .i16 => 2
  | .u32 | .i32 | .f32 => 4
  | .u64 | .i64 => 8

/-- `bs` is the little-endian encoding of a scalar: an integer modulo `256 ^ width` (two's complement), the bit
pattern of a float, or the character itself. -/
def ScalarBytes (t : CType) (bs : List Byte) : Val → Prop
  | .int i => bs.length = width t ∧ (leNat bs : Int) = i % (256 ^ width t : Nat)
  | .flt b => bs.length = 4 ∧ leNat bs = b.toNat
  | .raw s => bs = s

/-- `bs` is what a field of type `t` with array length `n` (`0` = not an array) looks like on the wire. -/
def FieldBytes (t : CType) (n : Nat) (bs : List Byte) : FieldVal → Prop
  | .num (.raw s) => bs = (s ++ List.replicate n 0).take (if n = 0 then 1 else n)
  | .num v => ScalarBytes t bs v
  | .arr vs => ∃ cs : List (List Byte), bs = cs.flatten ∧ List.Forall₂ (ScalarBytes t) cs vs
  | .text _ => False

end NR.Spec

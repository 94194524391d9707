import Verif.Model.XmlTables
import Verif.Spec.Wire
import Verif.Spec.Crc
/-
What MAVLink 1 prescribes for the messages and enumerations of a definition file.
-/
namespace NR.Spec
open NR

/-- The order on the wire: wider types first, types of the same width in the order of the definition. `key` gives the type. -/
def wireOrder {α : Type} (key : α → CType) (l : List α) : List α :=
  [8, 4, 2, 1].flatMap fun n => l.filter fun a => decide (width (key a) = n)

/-- The name of a type in a definition file. -/
def typeName : CType → String
  | .u64 => "uint64_t" | .i64 => "int64_t" | .u32 => "uint32_t" | .i32 => "int32_t" | .f32 => "float"
  | .u16 => "uint16_t" | .i16 => "int16_t" | .u8 => "uint8_t" | .i8 => "int8_t" | .char => "char"

/-- The bytes of a text. -/
def ascii (s : String) : List Byte := s.toUTF8.data.toList.map UInt8.toBitVec

/-- What identifies a definition: the name of the message, and for each field in wire order its type, its name and, for an array, the
number of its elements; a blank after each name. -/
def signature (x : XmlMsg) : List Byte :=
  ascii x.name ++ [0x20] ++ (wireOrder XmlField.type x.fields).flatMap fun f =>
    ascii (typeName f.type) ++ [0x20] ++ ascii f.name ++ [0x20] ++ if f.count = 0 then [] else [BitVec.ofNat 8 f.count]

/-- The extra byte under the checksum of a message: both halves of the checksum of its definition, added bit by bit. -/
def fingerprint (x : XmlMsg) : Byte :=
  let c := crcOfBits (txBits (signature x))
  c.setWidth 8 ^^^ (c >>> 8).setWidth 8

/-- The values, in the order of the definition, fit the types of the fields. -/
def Fits (x : XmlMsg) (vals : List FieldVal) : Prop := List.Forall₂ (fun f v => FitsField f.type f.count v) x.fields vals

/-- `bs` is the payload of a message with these values: the fields in wire order, without gaps. -/
def IsPayload (x : XmlMsg) (vals : List FieldVal) (bs : List Byte) : Prop :=
  ∃ chunks : List (List Byte), bs = chunks.flatten ∧
    List.Forall₂ (fun c fv => FieldBytes fv.1.type fv.1.count c fv.2) chunks (wireOrder (fun fv => fv.1.type) (x.fields.zip vals))

/-- `frame` is the frame of a message with these values: the marker, the length of the payload, the sequence number, the system, the
component, the number of the message, the payload, and the checksum (low byte first) of all this but the marker, with the fingerprint
of the definition at the end. -/
def IsFrame (x : XmlMsg) (vals : List FieldVal) (seq sys cmp : Nat) (frame : List Byte) : Prop :=
  ∃ payload body, IsPayload x vals payload ∧
    body = [BitVec.ofNat 8 payload.length, BitVec.ofNat 8 seq, BitVec.ofNat 8 sys, BitVec.ofNat 8 cmp, BitVec.ofNat 8 x.id] ++ payload ∧
    let c := crcOfBits (txBits (body ++ [fingerprint x]))
    frame = 0xFE :: body ++ [c.setWidth 8, (c >>> 8).setWidth 8]

/-- A message class of a Python dialect is what the definition says. -/
structure Implements (m : MsgClass) (x : XmlMsg) : Prop where
  id : m.id = x.id
  name : m.name = x.name
  fieldnames : m.fieldnames = x.fields.map XmlField.name
  fieldtypes : m.fieldtypes = x.fields.map XmlField.type
  ordered : m.orderedFieldnames = (wireOrder XmlField.type x.fields).map XmlField.name
  arrays : m.arrayLengths = (wireOrder XmlField.type x.fields).map XmlField.count
  extra : m.crcExtra = (fingerprint x).toNat

/-- The values of the entries of an enumeration, `top` being the largest value so far: an entry without a value gets the number
after it. The second component is the largest value of all. -/
def numbered : Nat → List (Option Nat × String) → List (Nat × String) × Nat
  | top, [] => ([], top)
  | top, (v, n) :: rest =>
    let k := v.getD (top + 1)
    let r := numbered (max top k) rest
    ((k, n) :: r.1, r.2)

/-- The entries of an enumeration with their values, and one more, the end, with the number after the largest. -/
def XmlValues (e : XmlEnum) : List (Nat × String) :=
  (numbered 0 e.entries).1 ++ [((numbered 0 e.entries).2 + 1, e.name ++ "_ENUM_END")]

end NR.Spec

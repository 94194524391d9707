import Verif.Spec.Wire
import Verif.Model.Meta
/-
Where the fields of the messages of a buffer stand.
-/
namespace NR.Spec
open NR Dialect

/-- A field standing in a buffer: its name, its type, and the byte where it starts. -/
structure Place where
  name : String
  type : CType
  start : Nat
  deriving DecidableEq, Repr

/-- Byte `k` belongs to the field. -/
def Place.Has (p : Place) (k : Nat) : Prop := p.start ≤ k ∧ k < p.start + width p.type

instance (p : Place) (k : Nat) : Decidable (p.Has k) := by unfold Place.Has; infer_instance

/-- The bytes of the field. -/
def Place.bytes (p : Place) (buf : List Byte) : List Byte := (buf.drop p.start).take (width p.type)

/-- Consecutive fields starting at byte `o`. -/
def placeFrom : Nat → List (String × CType) → List Place
  | _, [] => []
  | o, (n, t) :: rest => ⟨n, t, o⟩ :: placeFrom (o + width t) rest

/-- Names and types of the fields of a message: the six header bytes, then the payload fields in wire order. -/
def msgFieldList (m : MsgClass) : List (String × CType) :=
  [("magic", .u8), (m.name ++ "_mlen", .u8), ("seq", .u8), ("srcSystem", .u8), (m.name ++ "_srcComponent", .u8),
    (m.name ++ "_msgId", .u8)] ++
  m.orderedFieldnames.map fun nm => (m.name ++ "_" ++ nm, ((m.fieldnames.zip m.fieldtypes).lookup nm).getD .char)

/-- The fields of the message `r = (start byte, id)`. -/
def msgPlaces (r : Nat × Nat) : List Place :=
  match lookupMsg r.2 with
  | none => []
  | some m => placeFrom r.1 (msgFieldList m)

/-- All fields of a buffer structure, in order. -/
def fieldPlaces (s : List (Nat × Nat)) : List Place := s.flatMap msgPlaces

/-- Every message is of a known type without arrays, and its header and payload lie inside the buffer. -/
def InRange (len : Nat) (s : List (Nat × Nat)) : Prop :=
  ∀ r ∈ s, ∃ m ∈ mavlinkMap, m.id = r.2 ∧ NoArrays m ∧ r.1 + 6 + msgLen m ≤ len

/-- Header and payload of the message `r` occupy byte `k`. -/
def Occupies (r : Nat × Nat) (k : Nat) : Prop := r.1 ≤ k ∧ k < r.1 + 6 + (payloadLen r.2).getD 0

/-- No byte belongs to two messages. -/
def NonOverlapping (s : List (Nat × Nat)) : Prop := s.Pairwise fun a b => ∀ k, ¬ (Occupies a k ∧ Occupies b k)

end NR.Spec

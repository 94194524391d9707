import Verif.Spec.Segment
import Verif.Model.MsgFields
import Mathlib.Data.List.Forall2
/-
The numbers of a decoded message under the names the buffer model uses.
-/
namespace NR.Spec
open NR

/-- The number a decoded message gives under a field name. -/
def numberOf (msg : MavMsg) (field : String) : Val :=
  match msg.attr field with
  | some (.num v) => v
  | _ => .int 0

/-- The numbers of a decoded message with their names: the header, then the fields in the order of the wire. -/
def named (msg : MavMsg) : List (String × Val) :=
  [("magic", .int 254), (msg.cls.name ++ "_mlen", .int msg.mlen), ("seq", .int msg.seq),
    ("srcSystem", .int msg.srcSystem), (msg.cls.name ++ "_srcComponent", .int msg.srcComponent),
    (msg.cls.name ++ "_msgId", .int msg.msgId)] ++
  msg.cls.orderedFieldnames.map fun nm => (msg.cls.name ++ "_" ++ nm, numberOf msg nm)

/-- `msgs` are what the MAVLink parser makes of the frames of the buffer at the places of the structure, and every field
of them holds one number. -/
def DecodedAs (buf : List Byte) (s : List (Nat × Nat)) (msgs : List MavMsg) : Prop :=
  List.Forall₂ (fun (r : Nat × Nat) msg => decode (frameBytes buf r.1 (lenOf r.2)) = .ok msg ∧ msg.msgId = r.2 ∧
    msg.mlen = lenOf r.2 ∧
    ∀ nm ∈ msg.cls.orderedFieldnames, msg.attr nm = some (.num (numberOf msg nm))) s msgs

end NR.Spec

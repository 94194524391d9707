import Verif.Model.Signing
/-
Specification vocabulary for signed frames. The last 13 bytes of a signed frame are the link id (1 byte), a timestamp
(6 bytes, little endian) and the signature (6 bytes).
-/
namespace NR.Spec
open NR

/-- Link id of a signed frame. -/
def linkOf (f : List Byte) : Nat := (f.getD (f.length - 13) 0).toNat

/-- Timestamp of a signed frame. -/
def stampOf (f : List Byte) : Nat := leNat ((f.take (f.length - 6)).drop (f.length - 12))

/-- The signature is the start of the digest of the key followed by everything before the signature. -/
def SigMatches (H : List Byte → List Byte) (key f : List Byte) : Prop :=
  f.drop (f.length - 6) = (H (key ++ f.take (f.length - 6))).take 6

/-- The stream a frame belongs to: link id, system and component of the sender. -/
def streamOf (f : List Byte) (m : MavMsg) : Nat × Nat × Nat := (linkOf f, m.srcSystem, m.srcComponent)

/-- The timestamp recorded for a stream. -/
def markOf (s : Signing) (k : Nat × Nat × Nat) : Option Nat := s.streams.lookup k

/-- The timestamp is acceptable: newer than the one recorded for its stream or, for a stream not seen before, at most
6000000 units (one minute) behind the receiver's clock. -/
def FreshStamp (s : Signing) (f : List Byte) (k : Nat × Nat × Nat) : Prop :=
  match markOf s k with
  | some t => t < stampOf f
  | none => s.timestamp ≤ stampOf f + 6000000

/-- The frame's header says that it is signed. -/
def Flagged (m : MavMsg) : Prop := m.incompat % 2 = 1

/-- The frame is signed with the key, and in time. -/
def Genuine (H : List Byte → List Byte) (key : List Byte) (s : Signing) (f : List Byte) (m : MavMsg) : Prop :=
  Flagged m ∧ SigMatches H key f ∧ FreshStamp s f (streamOf f m)

/-- The receiver lets unsigned messages with this id through. -/
def Allowed (s : Signing) (id : Nat) : Prop := ∃ cb, s.allowUnsigned = some cb ∧ cb id = true

end NR.Spec

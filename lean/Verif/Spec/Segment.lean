import Verif.Model.Segmentation
/-
Specification of segmentation: where frames stand, and the left-to-right scan.
-/
namespace NR.Spec
open NR

/-- A valid frame header for message type `id` with payload length `L` stands at byte `i` of the buffer. -/
structure HeaderAt (buf : List Byte) (i id L : Nat) : Prop where
  inside : i + 6 ≤ buf.length
  marker : (buf.getD i 0).toNat = 254
  lenByte : (buf.getD (i + 1) 0).toNat = L
  idByte : (buf.getD (i + 5) 0).toNat = id
  known : payloadLen id = some L

/-- The bytes of a frame with payload length `L` starting at `i` (fewer if the buffer ends before). -/
def frameBytes (buf : List Byte) (i L : Nat) : List Byte := (buf.drop i).take (L + 8)

/-- A frame starts at `i`: a valid header, at least 8 bytes left, and the bytes are acceptable. -/
def FrameAt (accepts : List Byte → Prop) (buf : List Byte) (i id L : Nat) : Prop :=
  HeaderAt buf i id L ∧ i + 8 ≤ buf.length ∧ accepts (frameBytes buf i L)

/-- Payload length of a known message type. -/
def lenOf (id : Nat) : Nat := (payloadLen id).getD 0

/-- Byte `k` lies in the reported message `r = (start, id)`. -/
def Covers (r : Nat × Nat) (k : Nat) : Prop := r.1 ≤ k ∧ k < r.1 + lenOf r.2 + 8

instance (r : Nat × Nat) (k : Nat) : Decidable (Covers r k) := by unfold Covers; infer_instance

/-- Which part of the message `r` byte `k` is. -/
def partOf (r : Nat × Nat) (k : Nat) : MsgPart :=
  if k < r.1 + 6 then .header else if k < r.1 + 6 + lenOf r.2 then .payload else .checksum

end NR.Spec

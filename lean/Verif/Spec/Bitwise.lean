import Verif.Spec.MavDecoder
import Verif.Spec.Decoder
import Verif.Spec.Segment
import Verif.Model.BitwiseDecoder
/-
What the bitwise entropy decoders learn, read off what their calls return.
-/
namespace NR.Spec

/-- A byte string consists of messages only: every byte belongs to one. -/
def Recovered (b : List Byte) : Prop := ∀ k < b.length, ∃ r ∈ messagesIn b, Covers r k

/-- The bytes of a bit string: byte `i` has bits `8 i` to `8 i + 7`, most significant first, and bits missing at the end
are zeros. -/
def bytesOf (l : List Bool) : List Byte :=
  (List.range ((l.length + 7) / 8)).map fun i =>
    ((List.range 8).map fun j => if l.getD (8 * i + j) false then BitVec.ofNat 8 (2 ^ (7 - j)) else 0).sum

open Classical in
/-- The word learned from an estimate: its model bits, if they consist of messages. -/
noncomputable def recoveredWord (idx : List Nat) (estimate : List Bool) : Option (List Bool) :=
  if Recovered (bytesOf (bitsAt idx estimate)) then some (bitsAt idx estimate) else none

/-- The words learned by a sequence of calls, read off their results; a call that raised learned nothing. -/
noncomputable def learnedOf (idx : List Nat) (results : List (Except PyErr EbdOut)) : List (List Bool) :=
  results.filterMap fun r => match r with
    | .ok out => recoveredWord idx out.estimate
    | .error _ => none

end NR.Spec

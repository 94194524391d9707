import Verif.Spec.Bits
import Verif.Model.Header
/-
Errors in the parts of a header that name its message type, for C141.
-/
namespace NR.C141
open NR NR.Spec

/-- The number of bits in which the length and the id bytes of two headers differ. -/
def typeErrors (h b : List Byte) : Nat :=
  popcount 8 ((h.getD 1 0).toNat ^^^ (b.getD 1 0).toNat) + popcount 8 ((h.getD 5 0).toNat ^^^ (b.getD 5 0).toNat)

/-- The message types of which every single error in length or id is repaired. -/
def robust : List Nat :=
  [0, 1, 2, 5, 6, 11, 20, 21, 22, 24, 26, 27, 30, 31, 32, 33, 36, 39, 48, 54, 63, 64, 65, 66, 69, 70, 73, 74, 75, 81, 82, 89, 91, 100, 101, 103,
   104, 105, 106, 107, 108, 109, 113, 116, 118, 121, 123, 128, 129, 131, 133, 136, 137, 138, 139, 141, 146, 147, 148, 149, 249, 250, 211, 218,
   220, 222, 224, 225, 226, 229, 230, 232, 235, 236]

end NR.C141

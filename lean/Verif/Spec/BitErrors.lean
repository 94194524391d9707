import Verif.Spec.Crc
/-
The number of bits in which two byte strings differ, for C140.
-/
namespace NR.C140
open NR NR.Spec

/-- The bits in which two byte strings of the same length differ. -/
def bitErrors (f g : List Byte) : Nat := (List.zipWith (fun a b => a ^^ b) (txBits f) (txBits g)).count true

end NR.C140

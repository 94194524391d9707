import Verif.Model.Py
/-
The X.25 / CRC-16-CCITT checksum register, bit by bit: the textbook definition (reflected generator
x^16 + x^12 + x^5 + 1 = 0x8408, initial value 0xFFFF, no final complement), bits taken least significant first.
-/
namespace NR.Spec
open NR

/-- One shift of the register. -/
def crcShift (r : BitVec 16) : BitVec 16 := if r.getLsbD 0 then (r >>> 1) ^^^ 0x8408 else r >>> 1

/-- Feed one bit. -/
def crcBit (r : BitVec 16) (b : Bool) : BitVec 16 := crcShift (r ^^^ (if b then 1 else 0))

/-- Bits of a byte in transmission order: least significant first. -/
def lsbBits (b : Byte) : List Bool :=
  [b.getLsbD 0, b.getLsbD 1, b.getLsbD 2, b.getLsbD 3, b.getLsbD 4, b.getLsbD 5, b.getLsbD 6, b.getLsbD 7]

/-- Transmission bits of a byte string. -/
def txBits (bs : List Byte) : List Bool := bs.flatMap lsbBits

/-- The checksum of a bit string. -/
def crcOfBits (bits : List Bool) : BitVec 16 := bits.foldl crcBit 0xFFFF

/-- Two bit strings that differ only inside one window of at most `w` consecutive bits. -/
def BurstApart (w : Nat) (a b : List Bool) : Prop :=
  ∃ pre x y post, a = pre ++ x ++ post ∧ b = pre ++ y ++ post ∧ x.length = y.length ∧ x.length ≤ w

end NR.Spec

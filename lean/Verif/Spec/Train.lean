import Verif.Spec.Bitwise
/-
Specification of training on a recording: a table with one transmission per row, one entry per bit.
-/
namespace NR.Spec
open NR

/-- The bits of the first 123 bytes of a row, where the messages are. -/
def rowBits (row : List Nat) : List Bool := (row.take 984).map fun v => decide (v ≠ 0)

/-- The transmission was identified: the row does not begin with the filler 2 (or more). -/
def Identified (row : List Nat) : Prop := ∃ v, row.head? = some v ∧ v < 2

/-- The row begins with the start-of-frame byte 254. -/
def StartsFrame (row : List Nat) : Prop := (rowBits row).take 8 = [true, true, true, true, true, true, true, false]

instance (row : List Nat) : Decidable (Identified row) :=
  match row with
  | [] => isFalse (by rintro ⟨v, h, _⟩; cases h)
  | v :: _ => if h : v < 2 then isTrue ⟨v, rfl, h⟩ else isFalse (by rintro ⟨w, hw, hl⟩; cases hw; exact h hl)

instance (row : List Nat) : Decidable (StartsFrame row) := by unfold StartsFrame; infer_instance

/-- The rows learned from. -/
def learned (rows : List (List Nat)) : List (List Nat) := rows.filter fun r => Identified r ∧ StartsFrame r

end NR.Spec

import Verif.Model.Denoisers
import Verif.Spec.Bits
/-
Words used for the comparison of denoisers.
-/
namespace NR.Spec

/-- All entries are bits. -/
def Binary (l : List Int) : Prop := ∀ x ∈ l, x = 0 ∨ x = 1

/-- A matrix of bits with the given number of rows and columns. -/
def BitMatrix (rows width : Nat) (m : List (List Int)) : Prop := m.length = rows ∧ ∀ r ∈ m, r.length = width ∧ Binary r

/-- How many positions satisfy a condition on the entries of three sequences. -/
def positionsWhere (a b c : List Int) (P : Int → Int → Int → Prop) [∀ x y z, Decidable (P x y z)] : Nat :=
  (List.range a.length).countP fun i => decide (P (a.getD i 0) (b.getD i 0) (c.getD i 0))

end NR.Spec

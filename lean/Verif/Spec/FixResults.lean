import Verif.Model.FixResults
/-
The words of C119.
-/
namespace NR.Fix

/-- A step as the run leaves it: tables under these three names. -/
def HoldsTables {α : Type} (s : Step α) : Prop :=
  ∀ key ∈ ["data", "decoded_entropy", "decoded_ldpc"], ∃ c, s.lookup key = some (.frame c)

/-- The step `whole`, taken apart: the two decoded tables and the rest. -/
def TakenApart {α : Type} (whole rest : Step α) (entropy ldpc : Cell α) : Prop :=
  ∀ key, whole.lookup key =
    if key = "decoded_entropy" then some entropy else if key = "decoded_ldpc" then some ldpc else rest.lookup key

end NR.Fix

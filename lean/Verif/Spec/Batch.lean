import Verif.Model.Batch
/-
What the batch scripts should do.
-/
namespace NR.Spec
open NR.Command

/-- `float` of a decimal number between 0 and 1. -/
def Decimals {F : Type} (fl : Floats F) : Prop :=
  ∀ w : Word, w ≠ [] → (∀ c ∈ w, '0' ≤ c ∧ c ≤ '9') → fl.read ('0' :: '.' :: w) = some (fl.lit (value w / 10 ^ w.length))

/-- The options with these names have these values, all others have their defaults. -/
def Settings {F : Type} (fl : Floats F) (opts : List Opt) (given : List (String × Val F)) (b : Args F) : Prop :=
  ∀ o ∈ opts, b o.name = (given.lookup o.name).getD (o.dflt.val fl)

/-- `i` has `d` decimal digits. -/
def HasDigits (i d : Nat) : Prop := (i = 0 ∧ d = 1) ∨ (0 < d ∧ 10 ^ (d - 1) ≤ i ∧ i < 10 ^ d)

end NR.Spec

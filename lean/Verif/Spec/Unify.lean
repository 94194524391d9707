import Verif.Model.Unify
/-
The order in which the parts of a broken run belong together.
-/
namespace NR.Spec
open NR.Unify

/-- The file is older, or of the same age and its name comes first. -/
def Earlier (a b : File) : Prop := a.mtime < b.mtime ∨ (a.mtime = b.mtime ∧ a.name ≤ b.name)

end NR.Spec

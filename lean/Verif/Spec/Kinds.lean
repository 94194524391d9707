import Verif.Model.Clustering
import Mathlib.Algebra.BigOperators.Group.Finset.Defs
import Mathlib.Data.Finset.Card
/-
Buffers of several kinds, for C145.
-/
namespace NR.C145
open NR

/-- What all buffers of one kind have in common: `some v` for a bit that is always `v`, `none` for a bit that varies. -/
abbrev Template := List (Option Bool)

/-- The buffer is of that kind. -/
def Fits (t : Template) (b : List Bool) : Prop :=
  b.length = t.length ∧ ∀ (i : Nat) (v : Bool), t[i]? = some (some v) → b[i]? = some v

/-- How many of the fixed bits the buffer has wrong. -/
def strays (t : Template) (b : List Bool) : Nat :=
  ((Finset.range t.length).filter fun i => ∃ v : Bool, t[i]? = some (some v) ∧ b[i]? ≠ some v).card

/-- How many bits vary. -/
def varying (t : Template) : Nat := ((Finset.range t.length).filter fun i => t[i]? = some none).card

/-- How many bits are fixed in both kinds, to different values. -/
def clash (t u : Template) : Nat :=
  ((Finset.range t.length).filter fun i => ∃ v : Bool, t[i]? = some (some v) ∧ u[i]? = some (some !v)).card

/-- The largest weight that the distance of two clusters can get when there are `n` training buffers. -/
noncomputable def heaviest : Weight → Nat → ℝ
  | .none, _ => 1
  | .sqrt, n => √((n : ℝ) / 2)
  | .linear, n => (n : ℝ) / 2

/-- The different entries of a list, in the order in which they first appear. -/
def firsts : List Nat → List Nat
  | [] => []
  | a :: l => a :: (firsts l).filter fun x => x ≠ a

end NR.C145

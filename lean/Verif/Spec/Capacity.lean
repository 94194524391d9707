import Mathlib.Analysis.SpecialFunctions.Log.Base
import Mathlib.Algebra.BigOperators.Group.Finset.Basic
import Mathlib.Data.Fintype.Basic
/-
A bit sent over a binary symmetric channel: its joint distribution with what arrives, and the information that carries.
-/
namespace NR.Spec

/-- The probability that `x` is sent and `y` arrives, if ones are sent with probability `q` and flipped with probability `p`. -/
noncomputable def sentAndSeen (q p : ℝ) (x y : Bool) : ℝ := (if x then q else 1 - q) * (if x = y then 1 - p else p)

/-- The mutual information, in bits, of what is sent and what arrives. -/
noncomputable def mutualInfo (P : Bool → Bool → ℝ) : ℝ :=
  ∑ x, ∑ y, P x y * Real.logb 2 (P x y / ((∑ y', P x y') * ∑ x', P x' y))

/-- The entropy, in bits, of what arrives. -/
noncomputable def seenEntropy (P : Bool → Bool → ℝ) : ℝ := -∑ y, (∑ x, P x y) * Real.logb 2 (∑ x, P x y)

end NR.Spec

import Mathlib.Data.Real.Basic
import Mathlib.Algebra.BigOperators.Group.List.Basic
/-
Probability vectors and relative frequencies.
-/
namespace NR.Spec

/-- A probability vector: non-negative entries with sum one. -/
def ProbVec (p : List ℝ) : Prop := (∀ x ∈ p, 0 ≤ x) ∧ p.sum = 1

/-- The relative frequency of `x` in `l`. -/
def freq (x : Int) (l : List Int) : ℚ := (l.count x : ℚ) / l.length

end NR.Spec

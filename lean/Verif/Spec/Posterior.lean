import Mathlib.Analysis.SpecialFunctions.Integrals.Basic
/-
What is known about the chance of a one after seeing `k` ones and `l` zeros, if all chances were equally likely before.
-/
namespace NR.Spec

/-- The moment of order `i`, not normalised. -/
noncomputable def moment (k l i : ℕ) : ℝ := ∫ x in (0 : ℝ)..1, x ^ i * (x ^ k * (1 - x) ^ l)

/-- The variance of the chance of a one. -/
noncomputable def posteriorVariance (k l : ℕ) : ℝ := moment k l 2 / moment k l 0 - (moment k l 1 / moment k l 0) ^ 2

end NR.Spec

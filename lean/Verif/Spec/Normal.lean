import Mathlib.Probability.Distributions.Gaussian.Real
/-
The normal distribution: what `scipy.stats.norm` stands for.
-/
namespace NR.Spec
open MeasureTheory ProbabilityTheory

/-- The normal distribution with mean `c` and standard deviation `s`. -/
noncomputable def normal (c s : ℝ) : Measure ℝ := gaussianReal c (Real.toNNReal (s ^ 2))

end NR.Spec

import Mathlib.MeasureTheory.Integral.IntervalIntegral.Basic
import Mathlib.Analysis.SpecialFunctions.Gaussian.GaussianIntegral
/-
The error function and the sample statistics, over the reals.
-/
namespace NR.Spec
open Real

/-- The error function, `scipy.special.erf`. -/
noncomputable def erf (x : ℝ) : ℝ := 2 / √π * ∫ t in (0)..x, exp (-t ^ 2)

/-- Arithmetic mean (0 for the empty list). -/
noncomputable def average (l : List ℝ) : ℝ := l.sum / l.length

/-- Population standard deviation. -/
noncomputable def stdDev (l : List ℝ) : ℝ := √(average (l.map fun x => (x - average l) ^ 2))

end NR.Spec

import Verif.Spec.Cluster
import Verif.Model.MergeDist
import Mathlib.Analysis.SpecialFunctions.Log.Base
import Mathlib.Algebra.BigOperators.Group.Finset.Defs
/-
How far apart two lists of samples are.
-/
namespace NR.Spec

/-- The share of ones among the samples at bit position `i`. -/
noncomputable def share (s : List (List Bool)) (i : Nat) : ℝ := (onesAt s i : ℝ) / s.length

/-- The Hellinger distance of two coins with probabilities `a` and `b`. -/
noncomputable def coinHellinger (a b : ℝ) : ℝ := √(1 - (√(a * b) + √((1 - a) * (1 - b))))

/-- The symmetrised Kullback-Leibler divergence of two coins in bits, cut off at ten. Different coins one of which always
falls on the same side have an infinite divergence. -/
noncomputable def coinDivergence (a b : ℝ) : ℝ :=
  open Classical in
  if a = b then 0
  else if 0 < a ∧ a < 1 ∧ 0 < b ∧ b < 1 then min 10 ((a - b) * Real.logb 2 (a * (1 - b) / (b * (1 - a))))
  else 10

/-- The average over the bit positions. -/
noncomputable def perBit (L : Nat) (f : Nat → ℝ) : ℝ := (∑ i ∈ Finset.range L, f i) / L

/-- What the average size of two clusters is turned into. -/
noncomputable def sizeWeight (w : Weight) (s t : List (List Bool)) : ℝ :=
  match w with
  | .sqrt => √(((s.length : ℝ) + t.length) / 2)
  | .linear => ((s.length : ℝ) + t.length) / 2
  | .none => 1

/-- The distance of two coins that always fall on different sides, with either distance. -/
def opposite : MergeDist → ℝ
  | .hellinger => 1
  | .klDiv => 10

/-- In how many positions two buffers differ. -/
def differing (a b : List Bool) : Nat := (List.zip a b).countP fun p => p.1 != p.2

end NR.Spec

import Mathlib.Analysis.SpecialFunctions.Log.Base
/-
Model of runs/HC_eilat_July_2018/analysis/bsc_capacity.py and entropy_with_flips.py. Floats are reals; plotting is not modelled.
-/
namespace NR.Capacity

/-- `c`, bsc_capacity.py:4. -/
noncomputable def c (p : ℝ) : ℝ := 1 + (p * Real.logb 2 p + (1 - p) * Real.logb 2 (1 - p))

/-- `f = np.linspace(0.03, 0.1, num=50)`, bsc_capacity.py:5. -/
noncomputable def f : List ℝ := (List.range 50).map fun (i : Nat) => 0.03 + (i : ℝ) * ((0.1 - 0.03) / (50 - 1 : ℝ))

/-- `capacity`, bsc_capacity.py:6. -/
noncomputable def capacity : List ℝ := f.map c

/-- One entry of `nr_capacity`, bsc_capacity.py:9; `r` is 0.24 there (:8). -/
noncomputable def modified (r p : ℝ) : ℝ := (1 - r) * c p + r * c (p / 2)

/-- `nr_capacity`, bsc_capacity.py:8-9. -/
noncomputable def nrCapacity : List ℝ := f.map (modified 0.24)

/-- `ent_real`, entropy_with_flips.py:2-5. -/
noncomputable def entReal (p0 : ℝ) : ℝ := -p0 * Real.logb 2 p0 - (1 - p0) * Real.logb 2 (1 - p0)

/-- `ent_measured`, entropy_with_flips.py:7-9. -/
noncomputable def entMeasured (p0 pFlip : ℝ) : ℝ :=
  -(p0 + pFlip) * Real.logb 2 (p0 + pFlip) - (1 - (p0 + pFlip)) * Real.logb 2 (1 - (p0 + pFlip))

end NR.Capacity

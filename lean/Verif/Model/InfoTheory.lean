import Verif.Model.Py
import Mathlib.Analysis.SpecialFunctions.Log.NegMulLog
import Mathlib.Analysis.SpecialFunctions.Pow.Real
/-
Model of utils/information_theory.py. Probabilities are exact (rationals for counts, reals for entropies); rounding of
floats is not modelled.
-/
namespace NR

/-- Insertion into a strictly increasing list, keeping one copy. -/
def insertU (x : Int) : List Int → List Int
  | [] => [x]
  | y :: ys => if x < y then x :: y :: ys else if x = y then y :: ys else y :: insertU x ys

/-- `np.unique`: the sorted distinct values. -/
def npUnique (l : List Int) : List Int := l.foldr insertU []

/-- The array handed to `prob`: floats, or integers with 1, 2 or another number of dimensions. `d2 n rows` has shape
`(rows.length, n)`. -/
inductive IntArr where
  | float
  | d1 (l : List Int)
  | d2 (n : Nat) (rows : List (List Int))
  | other

/-- The inner loop `pr[row_idx][alphabet.index(val)] = count`, information_theory.py:25-28. `pr` is one row. -/
def countRow (alphabet : List Int) (row : List Int) (pr : List ℚ) : Except PyErr (List ℚ) :=
  (npUnique row).foldlM (fun pr v =>
    if v ∈ alphabet then .ok (pr.set (alphabet.idxOf v) (row.count v : ℚ)) else .error .valueError) pr

/-- `prob_with_alphabet`, information_theory.py:9-39. The result is a matrix (one row for 1-D data). Simplification:
division by a zero number of samples gives 0 here instead of NaN. -/
def probWithAlphabet : IntArr → Except PyErr (List (List ℚ) × List Int)
  | .float => .error .unsupportedDtype
  | .d2 n rows => do
    let alphabet := npUnique rows.flatten
    let pr ← rows.mapM fun row => countRow alphabet row (List.replicate alphabet.length 0)
    .ok (pr.map fun r => r.map (· / (n : ℚ)), alphabet)
  | .d1 l =>
    let alphabet := npUnique l
    .ok ([alphabet.map fun v => (l.count v : ℚ) / (l.length : ℚ)], alphabet)
  | .other => .error .valueError

/-- `prob`, information_theory.py:42-49. -/
def prob (a : IntArr) : Except PyErr (List (List ℚ)) := do
  let (pr, _) ← probWithAlphabet a
  .ok pr

/-- An array of reals with 1, 2 or another number of dimensions. -/
inductive RealArr where
  | d1 (l : List ℝ)
  | d2 (rows : List (List ℝ))
  | other

/-- `scipy.stats.entropy(pk, base=base)`: `pk` is normalised, then the terms `-p log p` (0 for `p = 0`) are summed.
Simplification: non-negative entries with a positive sum. -/
noncomputable def scipyEntropy (pk : List ℝ) (base : ℝ) : ℝ :=
  (pk.map fun p => Real.negMulLog (p / pk.sum)).sum / Real.log base

/-- `entropy`, information_theory.py:52-65; one value per row (one for 1-D data). -/
noncomputable def entropyPy (base : ℝ) : RealArr → Except PyErr (List ℝ)
  | .d1 pk => .ok [scipyEntropy pk base]
  | .d2 rows => .ok (rows.map fun r => scipyEntropy r base)
  | .other => .error .valueError

/-- `typical_set_cardinality`, information_theory.py:68-93. `float(...)` of an array with more than one entry raises a
TypeError. -/
noncomputable def typicalSet (n : Int) (pk : Option RealArr) (ent : Option ℝ) (eps : ℝ) : Except PyErr (ℝ × ℝ) :=
  open Classical in
  if n ≤ 0 ∨ eps ≤ 0 then .error .valueError
  else do
    let h ← match ent with
      | some h => .ok h
      | none => match pk with
        | none => .error .valueError
        | some pk => do
          let hs ← entropyPy 2 pk
          match hs with
          | [h] => .ok h
          | _ => .error .typeError
    .ok ((1 - eps) * 2 ^ ((n : ℝ) * (h - eps)), 2 ^ ((n : ℝ) * (h + eps)))

/-- `np.sqrt(1 - np.sum(np.sqrt(pk * qk)))` for two vectors of the same length. -/
noncomputable def hellingerVec (p q : List ℝ) : ℝ := √(1 - (p.zipWith (fun a b => √(a * b)) q).sum)

/-- `hellinger`, information_theory.py:96-105, for arrays of the same shape; one value per row. -/
noncomputable def hellinger : RealArr → RealArr → Except PyErr (List ℝ)
  | .d2 p, .d2 q => .ok (p.zipWith hellingerVec q)
  | .d1 p, .d1 q => .ok [hellingerVec p q]
  | _, _ => .error .valueError

end NR

import Verif.Spec.Simulation
import Mathlib.Data.Real.Basic
/-
Numbers about a classifier: every case is a pair of what was predicted and what is.
-/
namespace NR.Spec
open NR

/-- The cases with this prediction and this truth. -/
def number (cases : List (Bool × Bool)) (pred act : Bool) : Nat := cases.count (pred, act)

/-- True positives, false positives, true negatives, false negatives, positives and negatives. -/
def rowOf (cases : List (Bool × Bool)) : List Int :=
  [number cases true true, number cases true false, number cases false false, number cases false true,
   (cases.filter (·.2)).length, (cases.filter fun c => !c.2).length]

open Classical in
/-- Positions below `n` as cases. -/
noncomputable def casesOf (n : Nat) (pred act : Nat → Prop) : List (Bool × Bool) :=
  (List.range n).map fun i => (decide (pred i), decide (act i))

/-- The share `x` out of `y`, nothing if there is nothing to have a share of. -/
noncomputable def ratioOf (x y : Nat) : Option ℝ := if y = 0 then none else some (x / y : ℝ)

/-- The F-score that gives recall `beta` times the weight of precision (van Rijsbergen):
`(1 + β²) TP / ((1 + β²) TP + β² FN + FP)`. -/
noncomputable def fBeta (beta : ℝ) (cases : List (Bool × Bool)) : ℝ :=
  (1 + beta ^ 2) * number cases true true /
    ((1 + beta ^ 2) * number cases true true + beta ^ 2 * number cases false true + number cases true false)

end NR.Spec

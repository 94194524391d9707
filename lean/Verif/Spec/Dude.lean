import Mathlib.Data.Real.Basic
import Mathlib.LinearAlgebra.Matrix.Notation
/-
Occurrence counts and the binary symmetric channel.
-/
namespace NR.Spec

/-- The `k` symbols before position `i`. -/
def before (obs : List Int) (k i : Nat) : List Int := (obs.drop (i - k)).take k

/-- The `k` symbols after position `i`. -/
def after (obs : List Int) (k i : Nat) : List Int := (obs.drop (i + 1)).take k

/-- How often, at the positions `k, ..., i`, the symbol `a` followed the `k` symbols preceding position `i`. -/
def followCount (obs : List Int) (k i a : Nat) : Nat :=
  (List.range (i + 1)).countP fun j => decide (k ≤ j ∧ before obs k j = before obs k i ∧ obs[j]? = some (a : Int))

/-- How often the symbol `a` occurs, at the positions `k, ..., n - k - 1`, between the same symbols as position `i`. -/
def insideCount (obs : List Int) (k i a : Nat) : Nat :=
  (List.range obs.length).countP fun j => decide (k ≤ j ∧ j + k < obs.length ∧ before obs k j = before obs k i ∧
    after obs k j = after obs k i ∧ obs[j]? = some (a : Int))

/-- The transition matrix of the binary symmetric channel. -/
def bsc (f : ℝ) : Matrix (Fin 2) (Fin 2) ℝ := !![1 - f, f; f, 1 - f]

/-- The Hamming loss. -/
def hammingLoss : Matrix (Fin 2) (Fin 2) ℝ := !![0, 1; 1, 0]

end NR.Spec

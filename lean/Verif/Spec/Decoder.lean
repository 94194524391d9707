import Verif.Spec.Window
import Mathlib.Data.Real.Basic
import Mathlib.Algebra.Order.Group.Unbundled.Abs
/-
Words used in the properties of the decoders.
-/
namespace NR.Spec

/-- What an optional window keeps of a history: everything, or the last `w` elements. -/
def keep {α : Type _} : Option Nat → List α → List α
  | none, l => l
  | some w, l => lastN w l

/-- The hard decision on a received word: a negative ratio means 1. -/
noncomputable def hardWord (l : List ℝ) : List Bool := open Classical in l.map fun x => decide (x < 0)

/-- The bits at the given positions. -/
def bitsAt (idx : List Nat) (w : List Bool) : List Bool := idx.filterMap (w[·]?)

/-- The share of the samples whose bit `j` is 1. -/
noncomputable def oneShare (samples : List (List Bool)) (j : Nat) : ℝ :=
  (samples.countP fun b => b.getD j false : ℕ) / (samples.length : ℝ)

end NR.Spec

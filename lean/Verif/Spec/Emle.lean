import Mathlib.Data.Real.Basic
/-
Words used in the properties of the entropy aided denoiser.
-/
namespace NR.Spec

/-- Bits as numbers. -/
def bitsR (b : List Bool) : List ℝ := b.map fun x => if x then 1 else 0

/-- The share of the buffers whose bit `j` is 1. -/
noncomputable def shareOfOnes (buffers : List (List Bool)) (j : Nat) : ℝ :=
  (buffers.countP fun b => b.getD j false : ℕ) / (buffers.length : ℝ)

/-- The probability that a bit is 1 after a binary symmetric channel with flip probability `f`, when it was 1 with
probability `q` before. -/
def throughBsc (f q : ℝ) : ℝ := (1 - f) * q + f * (1 - q)

/-- The hard decision on a log-likelihood ratio: negative means 1. -/
noncomputable def hardBit (x : ℝ) : Bool := open Classical in decide (x < 0)

end NR.Spec

import Verif.Spec.Emle
/-
Maximum likelihood of a bit that is seen through a binary symmetric channel.
-/
namespace NR.Spec

/-- The probability of the bits seen at position `j` of the words, when each was a one with probability `p` before a binary
symmetric channel with flip probability `f`. -/
noncomputable def likelihood (f : ℝ) (words : List (List Bool)) (j : Nat) (p : ℝ) : ℝ :=
  (words.map fun x => if x.getD j false then throughBsc f p else 1 - throughBsc f p).prod

/-- `p` explains the bits seen at position `j` better than any other probability. -/
def MostLikely (f : ℝ) (words : List (List Bool)) (j : Nat) (p : ℝ) : Prop :=
  0 ≤ p ∧ p ≤ 1 ∧ ∀ q, 0 ≤ q → q ≤ 1 → q ≠ p → likelihood f words j q < likelihood f words j p

end NR.Spec

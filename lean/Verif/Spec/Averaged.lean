import Verif.Model.Averaged
import Verif.Spec.Runs
import Verif.Spec.Trials
/-
What a run over several flip probabilities with errors drawn in advance is about.
-/
namespace NR.Spec
open NR

/-- How many bits of a word of `n` are to be inverted at flip probability `p`. -/
def toInvert (n : Nat) (p : ℚ) : Nat := ⌊(n : ℚ) * p⌋.toNat

/-- `draw i m` gives `m` different positions of a word of `n` bits. -/
def ProperDraws (n : Nat) (draw : Nat → Nat → List Nat) : Prop := ∀ i m, m ≤ n → Positions n m (draw i m)

/-- The decoder that returns the received word. -/
noncomputable def noDecoder : Coder Unit := fun _ llr _ => ((), .ok (hardBits llr, true))

end NR.Spec

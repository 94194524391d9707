import Mathlib.Probability.Distributions.Gaussian.Real
import Verif.Model.Awgn
import Verif.Spec.Runs
/-
A channel with Gaussian noise: a zero is sent as +1, a one as -1, and noise of standard deviation `σ` is added.
-/
namespace NR.Spec
open NR ProbabilityTheory

/-- The symbol sent for a bit. -/
def symbol (b : Bool) : ℝ := if b then -1 else 1

/-- The density of what is received when bit `b` is sent. -/
noncomputable def density (σ : ℝ) (b : Bool) (y : ℝ) : ℝ := gaussianPDFReal (symbol b) (σ ^ 2).toNNReal y

/-- What is received for a bit, when `z` is the noise in units of its deviation. -/
noncomputable def receive (σ : ℝ) (b : Bool) (z : ℝ) : ℝ := symbol b + σ * z

/-- What is received for a word. -/
noncomputable def receiveWord (σ : ℝ) (w : List Bool × List ℝ) : List ℝ := (w.1.zip w.2).map fun x => receive σ x.1 x.2

/-- The inputs of both decoders: the log likelihood ratios of the bits received. -/
noncomputable def awgnInputs (σ : ℝ) (words : List (List Bool × List ℝ)) : List (List ℝ × Option (List Nat)) :=
  words.map fun w => ((receiveWord σ w).map fun y => Real.log (density σ false y / density σ true y), none)

open Classical in
/-- The more likely bit for a received value. -/
noncomputable def likelyBit (σ y : ℝ) : Bool := decide (density σ false y < density σ true y)

/-- How many bits of a word, among the positions `i` with `P i`, are received wrong: the other bit is the more likely one. -/
noncomputable def receivedWrong (σ : ℝ) (w : List Bool × List ℝ) (P : Nat → Prop) : Nat :=
  (positions w.1.length fun i => P i ∧ likelyBit σ ((receiveWord σ w).getD i 0) ≠ w.1.getD i false).length

end NR.Spec

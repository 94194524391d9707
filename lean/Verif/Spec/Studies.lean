import Verif.Model.Studies
import Verif.Spec.Awgn
/-
What every decoder of a comparison is given, and what it answers.
-/
namespace NR.Spec
open NR NR.Studies

variable {σ : Type}

/-- What a decoder is given for a word sent over the binary channel: the ratios of the word with its errors inverted, and the
positions of the errors if it asks for them, or the bits themselves. -/
noncomputable def bscGiven (p : ℝ) : View → List Bool × List Nat → List ℝ × Option (List Nat)
  | .ratios, w => (channelLlr p (flipAt w.1 w.2), none)
  | .ratiosAndErrors, w => (channelLlr p (flipAt w.1 w.2), some w.2)
  | .samples, w => ((flipAt w.1 w.2).map fun b => if b then 1 else 0, none)

/-- What a decoder is given for a word sent over the channel with Gaussian noise: the log likelihood ratios of the samples received, or
the samples. -/
noncomputable def awgnGiven (s : ℝ) : View → List Bool × List ℝ → List ℝ × Option (List Nat)
  | .ratios, w => ((receiveWord s w).map fun y => Real.log (density s false y / density s true y), none)
  | .ratiosAndErrors, w => ((receiveWord s w).map fun y => Real.log (density s false y / density s true y), some [])
  | .samples, w => (receiveWord s w, none)

/-- The decoder answers these words with these estimates when it is the only one in use, and raises nothing. -/
def Answers (c : Contender σ) (given : List (List ℝ × Option (List Nat))) (est : List (List Bool)) : Prop :=
  ∃ flags : List Bool, flags.length = est.length ∧ outputs c.run c.state given = (est.zip flags).map .ok

end NR.Spec

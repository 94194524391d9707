import Verif.Spec.Likelihood
/-
Specification of the study of noisy bits: a source emits ones with probability `p`; each bit is flipped with probability `f`.
-/
namespace NR.Spec

/-- The probability of a bit that is a one with probability `p`. -/
def bitProb (p : ℝ) (b : Bool) : ℝ := if b then p else 1 - p

/-- The expected value of `g` over `n` independent draws of a source bit and a noise bit. -/
def bscMean (p f : ℝ) : Nat → (List (Bool × Bool) → ℝ) → ℝ
  | 0, g => g []
  | n + 1, g =>
    bitProb p true * bitProb f true * bscMean p f n (fun l => g ((true, true) :: l)) +
    bitProb p true * bitProb f false * bscMean p f n (fun l => g ((true, false) :: l)) +
    bitProb p false * bitProb f true * bscMean p f n (fun l => g ((false, true) :: l)) +
    bitProb p false * bitProb f false * bscMean p f n (fun l => g ((false, false) :: l))

/-- The bits that are seen: a noise bit flips its source bit. -/
def seenBits (draws : List (Bool × Bool)) : List Bool := draws.map fun d => if d.2 then !d.1 else d.1

/-- The estimate from the seen bits: the share of ones, flipCorrected for flips and kept between 0 and 1. -/
noncomputable def flipCorrected (f : ℝ) (bits : List Bool) : ℝ :=
  min 1 (max 0 (((bits.count true : ℝ) / bits.length - f) / (1 - 2 * f)))

end NR.Spec

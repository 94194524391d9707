import Verif.Model.EntropyDecoder
import Verif.Spec.DudeDecoder
/-
What the entropy decoder is meant to hand to a bit-flipping LDPC decoder: a word of samples, or of bits, and a word of priors.
-/
namespace NR.Spec
open NR

/-- Bit `k` of the model has low entropy. -/
def LowBit (c : CedCfg) (ents : List ℝ) (k : Nat) : Prop := ∃ h, ents[k]? = some h ∧ h < c.threshold

/-- Position `i` of the codeword carries a model bit of low entropy. -/
def LowPos (c : CedCfg) (ents : List ℝ) (i : Nat) : Prop := ∃ k, c.idx[k]? = some i ∧ LowBit c ents k

/-- The code uses a model only if some position other than 0 carries a bit of low entropy. -/
def Usable (c : CedCfg) (ents : List ℝ) : Prop := ∃ i, LowPos c ents i ∧ i ≠ 0

open Classical in
/-- How far a model made from so many words is trusted: fully if it was given; otherwise not at all with one word or none, and by the
logistic function of the number of words from then on. -/
noncomputable def entTrust (c : CedCfg) (words : Nat) : ℝ :=
  if c.train then (if words ≤ 1 then 0 else 1 / (1 + Real.exp (-((words : ℝ) - c.center) * c.slope))) else 1

/-- The model's word: at the positions of low-entropy bits the trust times the logarithm of the ratio of the probabilities of a zero and
a one, elsewhere zero. -/
structure ModelWord (c : CedCfg) (ents : List ℝ) (dist : List (ℝ × ℝ)) (words n : Nat) (mod : List ℝ) : Prop where
  length : mod.length = n
  low : Usable c ents → ∀ k i, c.idx[k]? = some i → LowBit c ents k →
    mod.getD i 0 = entTrust c words * Real.log ((floatEps + (dist.getD k (0, 0)).1) / ((dist.getD k (0, 0)).2 + floatEps))
  silent : ∀ i, ¬ LowPos c ents i ∨ ¬ Usable c ents → mod.getD i 0 = 0

open Classical in
/-- What the LDPC decoder gets: samples and priors, or the hard decisions of the samples. -/
noncomputable def toDecoder (kind : LdpcKind) (samples priors : List ℝ) : LdpcIn :=
  if kind = .galBf then .bits (samples.map fun x => decide (x < 0)) else .samples samples (some priors)

/-- Position `i` of the sum of both words, the model's scaled down to the peak of the channel's if it is larger. -/
noncomputable def summed (ch mod : List ℝ) (peak top : ℝ) (i : Nat) : ℝ := ch.getD i 0 + mod.getD i 0 * min 1 (peak / top)

open Classical in
/-- How strongly the model contradicts the channel at position `i`; negative if it agrees. -/
noncomputable def contradiction (ch mod : List ℝ) (i : Nat) : ℝ :=
  if ch.getD i 0 * mod.getD i 0 < 0 then |mod.getD i 0| else if 0 < ch.getD i 0 * mod.getD i 0 then -|mod.getD i 0| else 0

/-- The root of the mean square. -/
noncomputable def rms (w : List ℝ) : ℝ := √((w.map fun x => x ^ 2).sum / w.length)

/-- The bound for the priors: methods 1 and 2. -/
noncomputable def priorBound (c : CedCfg) (ch : List ℝ) (peak : ℝ) : ℝ := min peak (if c.method = 1 then 1 else rms ch / c.meanDegree)

end NR.Spec

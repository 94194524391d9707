import Verif.Model.Decoder
import Verif.Model.Clustering
/-
Model of the study of estimating a bit probability through a noisy channel, analysis/MLE_noisy_Bernoulli.py:1-36. Random draws
are arguments. numpy floats are reals.
-/
namespace NR

/-- The mean of the noisy bits of one trial, MLE_noisy_Bernoulli.py:18-21: `np.mean(np.mod(x + w, 2))`, for the pairs of a
source bit and a noise bit. -/
noncomputable def noisyShare (draws : List (Bool × Bool)) : ℝ :=
  meanR (draws.map fun d => (((d.1.toNat + d.2.toNat) % 2 : Nat) : ℝ))

/-- One row of the results, MLE_noisy_Bernoulli.py:33-35. -/
structure StudyRow where
  error : List ℝ
  ignorantError : List ℝ
  ignorantMaxError : ℝ
  ignorantMse : ℝ
  maxError : ℝ
  mse : ℝ

/-- `max` of a list of floats; ValueError if empty. -/
noncomputable def listMax : List ℝ → Except PyErr ℝ
  | [] => .error .valueError
  | x :: xs => .ok (xs.foldl max x)

/-- The pass of the two outer loops for `p1` and `f`, MLE_noisy_Bernoulli.py:15-35; `trials` holds the draws of the inner loop
(1000 of 50 in the script). -/
noncomputable def studyRow (p1 f : ℝ) (trials : List (List (Bool × Bool))) : Except PyErr StudyRow := do
  let vHat := trials.map noisyShare
  let ignorantError := vHat.map fun v => |v - p1|
  let p1Hat := vHat.map fun v => npClip 0 1 ((v - f) / (1 - 2 * f))
  let mlError := p1Hat.map fun p => |p - p1|
  let ignorantMaxError ← listMax ignorantError
  let maxError ← listMax mlError
  .ok { error := mlError, ignorantError, ignorantMaxError, ignorantMse := meanR (ignorantError.map (· ^ 2)),
        maxError, mse := meanR (mlError.map (· ^ 2)) }

end NR

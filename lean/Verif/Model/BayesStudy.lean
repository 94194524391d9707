import Verif.Model.NoisyBernoulli
/-
Model of the MATLAB versions of the study of noisy bits, analysis/MLE_noisy_Bernoulli.m and analysis/Bayesian_noisy_Bernoulli.m.
Random draws are arguments, doubles are reals or, where they are whole, natural numbers. The plots are not modelled.
-/
namespace NR

/-- The two numbers stored for a point of the mesh, MLE_noisy_Bernoulli.m:28-29: the mean squared errors of the plain and of the
corrected estimate. -/
structure CellMse where
  ignorant : ℝ
  corrected : ℝ

/-- The errors of a list of estimates, MLE_noisy_Bernoulli.m:25-29, Bayesian_noisy_Bernoulli.m:37-41. -/
noncomputable def cellOf (p1 f : ℝ) (vHat : List ℝ) : CellMse :=
  let ignorantError := vHat.map fun v => |v - p1|
  let p1Hat := vHat.map fun v => min (max ((v - f) / (1 - 2 * f)) 0) 1
  let mlError := p1Hat.map fun p => |p - p1|
  { ignorant := meanR (ignorantError.map (· ^ 2)), corrected := meanR (mlError.map (· ^ 2)) }

/-- A point of the mesh in MLE_noisy_Bernoulli.m:19-29 (and 72-82, 125-135, Bayesian_noisy_Bernoulli.m:84-94, 137-147);
`trials` holds the columns of `x` and `w`. -/
noncomputable def mleCell (p1 f : ℝ) (trials : List (List (Bool × Bool))) : CellMse := cellOf p1 f (trials.map noisyShare)

/-- The counts `a` and `b` of the Bayesian estimate, Bayesian_noisy_Bernoulli.m:10-11. -/
structure BetaCounts where
  a : Nat
  b : Nat
  deriving DecidableEq

/-- `min_size` and `max_size`, Bayesian_noisy_Bernoulli.m:12-13. -/
def bayesMin : Nat := 50
def bayesMax : Nat := 75

/-- Shrinking the counts, Bayesian_noisy_Bernoulli.m:25-34. -/
def shrinkCounts (c : BetaCounts) : BetaCounts :=
  if c.a + c.b > bayesMax then
    let m := Nat.gcd c.a c.b
    let c' : BetaCounts := ⟨c.a / m, c.b / m⟩
    if c'.a + c'.b < bayesMin then
      let m' := bayesMin / (c'.a + c'.b)
      ⟨c'.a * m', c'.b * m'⟩
    else c'
  else c

/-- One trial, Bayesian_noisy_Bernoulli.m:20-34: `x` is the source bit plus the noise bit modulo two. -/
def bayesTrial (c : BetaCounts) (draw : Bool × Bool) : BetaCounts :=
  let x := (draw.1.toNat + draw.2.toNat) % 2
  shrinkCounts ⟨c.a + x, c.b + 1 - x⟩

/-- `(a-1)/(a+b-2)`, Bayesian_noisy_Bernoulli.m:35. -/
noncomputable def bayesEstimate (c : BetaCounts) : ℝ := ((c.a : ℝ) - 1) / ((c.a : ℝ) + c.b - 2)

/-- The trials of a point, Bayesian_noisy_Bernoulli.m:18-36: the counts afterwards and the estimates. -/
noncomputable def bayesTrials : BetaCounts → List (Bool × Bool) → BetaCounts × List ℝ
  | c, [] => (c, [])
  | c, d :: ds =>
    let c' := bayesTrial c d
    let r := bayesTrials c' ds
    (r.1, bayesEstimate c' :: r.2)

/-- The points of the mesh one after the other, Bayesian_noisy_Bernoulli.m:10-43: the counts are set to one before the loops and
carried from point to point. A point is `p1`, `f` and its draws. -/
noncomputable def bayesCells : BetaCounts → List (ℝ × ℝ × List (Bool × Bool)) → List CellMse
  | _, [] => []
  | c, (p1, f, ds) :: rest =>
    let r := bayesTrials c ds
    cellOf p1 f r.2 :: bayesCells r.1 rest

/-- The whole study, Bayesian_noisy_Bernoulli.m:1-43. -/
noncomputable def bayesStudy (points : List (ℝ × ℝ × List (Bool × Bool))) : List CellMse := bayesCells ⟨1, 1⟩ points

end NR

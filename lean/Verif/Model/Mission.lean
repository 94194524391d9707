import Verif.Model.Py
import Mathlib.Analysis.SpecialFunctions.Trigonometric.Basic
import Mathlib.Analysis.SpecialFunctions.Exp
/-
Model of data_generation/mission_profile.py, a script that makes the channels of a simulated mission. Numbers are reals. The draws of the
random generator are parameters; `rng.normal(scale=s)` is `s` times a standard draw. Not modelled: the file the script opens, to which it
writes nothing (the MAVLink object made from it is never used).
-/
namespace NR.Mission
open NR

/-- `a + b` of two arrays: equal lengths, otherwise a ValueError (no array of the script has length 1). -/
noncomputable def addV (a b : List ℝ) : Except PyErr (List ℝ) :=
  if a.length = b.length then .ok (List.zipWith (· + ·) a b) else .error .valueError

/-- `a * b` of two arrays. -/
noncomputable def mulV (a b : List ℝ) : Except PyErr (List ℝ) :=
  if a.length = b.length then .ok (List.zipWith (· * ·) a b) else .error .valueError

/-- `x * np.ones(n)`, and `np.zeros(n)` for `x = 0`. -/
noncomputable def full (x : ℝ) (n : Nat) : List ℝ := List.replicate n x

/-- `np.linspace(a, b, n)` for `n` of at least 2, over the reals. -/
noncomputable def linspace (a b : ℝ) (n : Nat) : List ℝ := (List.range n).map fun (i : Nat) => a + (b - a) * i / (n - 1 : ℝ)

/-- The standard normal draws of the script in order, lines 30, 39, 51, 53, 58 and 65. -/
structure Draws where
  range : List ℝ
  azimuth : List ℝ
  chamberPressure : List ℝ
  chamberTemp : List ℝ
  depth : List ℝ
  waterTemp : List ℝ

/-- The channels the script leaves behind. `cleanDepth` is `depth` before line 67. -/
structure Profile where
  range : List ℝ
  azimuth : List ℝ
  mode : List ℝ
  status : List ℝ
  err : List ℝ
  chamberPressure : List ℝ
  chamberTemp : List ℝ
  cleanDepth : List ℝ
  depth : List ℝ
  waterTemp : List ℝ
  pressure : List ℝ

/-- `diving_angle`, line 18. -/
noncomputable def divingAngle : ℝ := 30 * Real.pi / 180

/-- Lines 27 to 29: the ranges at the ends of the legs. -/
noncomputable def firstRange : ℝ := 50 + 1 * 5 * 199
noncomputable def secondRange : ℝ := √(firstRange ^ 2 + (1 * 5 * 99) ^ 2)
noncomputable def thirdRange : ℝ := secondRange - 1 * 5 * 99

/-- Lines 30 to 34. -/
noncomputable def pingerRange (z : List ℝ) : Except PyErr (List ℝ) :=
  addV (full 0 50 ++ linspace 50 firstRange 200 ++ linspace firstRange secondRange 100 ++ linspace secondRange thirdRange 100 ++
    full thirdRange 50) (full 0 50 ++ z.map fun x => 2 * x)

/-- Lines 39 to 41. -/
noncomputable def azimuth (z : List ℝ) : Except PyErr (List ℝ) :=
  addV (full 0 50 ++ full 0 200 ++ full 90 100 ++ full 120 100 ++ full 120 50) (z.map fun x => 3 * x)

/-- Line 45. -/
noncomputable def mode : List ℝ := full 0 50 ++ full 2 100 ++ full 2 300 ++ full 4 50
/-- Line 46. -/
noncomputable def status : List ℝ := full 0 50 ++ full 1 100 ++ full 2 300 ++ full 4 50
/-- Line 47. -/
noncomputable def err : List ℝ := full 0 450 ++ full 8 50

/-- Line 51. -/
noncomputable def chamberPressure (z : List ℝ) : Except PyErr (List ℝ) := addV (full (19 / 2) 500) (z.map fun x => 1 / 20 * x)

/-- Lines 52 and 53. -/
noncomputable def chamberTemp (z : List ℝ) : Except PyErr (List ℝ) :=
  addV (linspace 39 41 50 ++ linspace 41 37 300 ++ full 37 115 ++ linspace 37 39 35) (z.map fun x => 3 / 20 * x)

/-- Line 57. -/
noncomputable def depthSigma : List ℝ := full (1 / 4) 60 ++ full (3 / 20) 410 ++ full (1 / 4) 30

/-- Line 58: the draws have deviation `depth_noise_sig` and are multiplied by it again. -/
noncomputable def depthNoise (z : List ℝ) : Except PyErr (List ℝ) := do mulV depthSigma (← mulV depthSigma z)

/-- Lines 59 to 62. -/
noncomputable def cleanDepth : List ℝ :=
  full 0 50 ++ linspace 0 (94 * Real.sin divingAngle) 95 ++
    linspace (95 * Real.sin divingAngle) (104 * Real.sin divingAngle) 19 ++ full (104 * Real.sin divingAngle) 286 ++
    linspace (104 * Real.sin divingAngle) 0 50

/-- Lines 64 to 66. -/
noncomputable def waterTemp (z : List ℝ) : Except PyErr (List ℝ) := do
  addV (cleanDepth.map fun d => 5 + 25 * Real.exp (-d / 200))
    (← mulV (full (2 / 5) 60 ++ full (3 / 20) 420 ++ full (3 / 10) 20) z)

/-- The script, lines 17 to 68. -/
noncomputable def profile (z : Draws) : Except PyErr Profile := do
  let range ← pingerRange z.range
  let azimuth ← azimuth z.azimuth
  let chamberPressure ← chamberPressure z.chamberPressure
  let chamberTemp ← chamberTemp z.chamberTemp
  let noise ← depthNoise z.depth
  let waterTemp ← waterTemp z.waterTemp
  let depth ← addV cleanDepth noise
  .ok { range, azimuth, mode, status, err, chamberPressure, chamberTemp, cleanDepth, depth, waterTemp,
        pressure := depth.map fun d => 101325 / 1000 + 1025 * (981 / 100) * d / 1000 }

end NR.Mission

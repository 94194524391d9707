import Verif.Model.Dude
import Verif.Model.Perf
/-
Model of scripts/estimators_comparison/compare_denoisers.py and of the counts printed by scripts/estimators_comparison/dude_example.py.
Random numbers are arguments. The entropy aided denoiser (Model/Emle.lean) is any function from a matrix to a matrix or an exception.
-/
namespace NR.Denoisers
open NR

/-- A denoiser of matrices: `emle.denoise_sequence(source)[0]` of a new `EMLE`. -/
abbrev MatrixDenoiser := List (List Int) → Except PyErr (List (List Int))

/-- `online_dude.denoise_sequence(column)[0]` of a new `OnlineDude`, compare_denoisers.py:29-31, on symbols of the binary alphabet.
Floating point symbols pass the range test (`1.0 in range(2)`), but cannot be used as an index (dude.py:46), so the first symbol after
the initial context raises IndexError. -/
def denoiseColumn (isFloat : Bool) (D : Decide Int) (k : Nat) (column : List Int) : Except PyErr (List Int) :=
  if isFloat ∧ k < column.length then .error .indexError
  else do
    let r ← OnlineDude.denoiseSequence D { k := k, A := 2 } column
    .ok r.1

/-- `a[:, i]`. -/
def columnAt (m : List (List Int)) (i : Nat) : List Int := m.map fun row => row.getD i 0

/-- `np.sum(a != b)` of arrays of the same shape. -/
def unequal (a b : List Int) : Nat := ((a.zip b).filter fun x => x.1 != x.2).length

/-- What `compare_denoisers` prints and returns (besides the statistics of `stats`). -/
structure Comparison where
  dudeBer : Option ℚ
  dudeFlips : Nat
  emleBer : Option ℚ
  emleFlips : Nat
  deriving DecidableEq

/-- `compare_denoisers`, compare_denoisers.py:9-47, of a matrix with `width` columns. -/
def compareDenoisers (isFloat : Bool) (D : Decide Int) (emle : MatrixDenoiser) (k width : Nat) (source : List (List Int)) :
    Except PyErr Comparison := do
  let columns ← (List.range width).mapM fun i => denoiseColumn isFloat D k (columnAt source i)
  let dude := (List.range source.length).map fun t => columns.map fun c => c.getD t 0
  let est ← emle source
  let dudeBer ← ber .signed source.flatten dude.flatten
  let emleBer ← ber .signed source.flatten est.flatten
  .ok ⟨dudeBer, unequal dude.flatten source.flatten, emleBer, unequal est.flatten source.flatten⟩

/-- `(source + noise) % 2`, compare_denoisers.py:62 and dude_example.py:37. -/
def addNoise (source noise : List Int) : List Int := List.zipWith (fun a b => (a + b) % 2) source noise

/-- The third comparison, compare_denoisers.py:65-69: the source is `np.ones((n, 1))`, an array of floats. -/
def fixedSource (D : Decide Int) (emle : MatrixDenoiser) (noise : List Int) : Except PyErr Comparison :=
  compareDenoisers true D emle 1 1 ((addNoise (noise.map fun _ => 1) noise).map fun x => [x])

/-- The numbers printed for a noisy sequence, dude_example.py:36-50, 133-156. -/
structure Printed where
  noiseErrors : Nat
  errors : Nat
  flips : Nat
  erroneous : Nat
  good : Nat
  emleErrors : Nat
  emleFlips : Nat
  deriving DecidableEq

/-- `np.sum((est != noisy) & (est != seq))` and `np.sum((est != noisy) & (est == seq))`, dude_example.py:137-138, 147-148. -/
def flipsThat (wrong : Bool) (est noisy seq : List Int) : Nat :=
  (((est.zip noisy).zip seq).filter fun x => x.1.1 != x.1.2 && (x.1.1 != x.2) == wrong).length

/-- One block of dude_example.py (lines 35-50, 133-156) for a denoiser of sequences; the entropy aided denoiser is given the sequence
without noise. -/
def example_ (dude : List Int → Except PyErr (List Int)) (emle : MatrixDenoiser) (seq noise : List Int) : Except PyErr Printed := do
  let noisy := addNoise seq noise
  let est ← dude noisy
  let e ← emle (seq.map fun x => [x])
  .ok { noiseErrors := unequal noisy seq, errors := unequal est seq, flips := unequal est noisy
        erroneous := flipsThat true est noisy seq, good := flipsThat false est noisy seq
        emleErrors := unequal e.flatten seq, emleFlips := unequal e.flatten noisy }

end NR.Denoisers

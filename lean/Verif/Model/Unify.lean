import Verif.Model.Py
import Mathlib.Data.String.Basic
import Mathlib.Data.Rat.Defs
import Mathlib.Algebra.Order.Ring.Unbundled.Rat
/-
Model of scripts/unify_results.py. Figures are not modelled beyond the fact that they were saved; the arguments of the run are only
represented by their `minflip`.
-/
namespace NR.Unify
open NR

/-- The entries of a step's results that the script reads. -/
structure Step where
  rawBer : ℚ
  ldpcBer : ℚ
  entropyBer : ℚ
  ldpcRate : ℚ
  entropyRate : ℚ
  deriving DecidableEq

/-- A file of the directory: its name, its modification time and the pickled object (`none`: a dictionary without these entries). -/
structure File where
  name : String
  mtime : ℚ
  content : Option Step
  deriving DecidableEq

/-- The summary, unify_results.py:53-55. -/
structure Summary where
  minflip : ℚ
  rawBer : List ℚ
  ldpcBer : List ℚ
  entropyBer : List ℚ
  ldpcRate : List ℚ
  entropyRate : List ℚ
  deriving DecidableEq

/-- What is written. -/
inductive Artifact where
  | results (l : List (Option Step))
  | berFigure
  | rateFigure
  | summary (s : Summary)
  deriving DecidableEq

/-- `f.endswith('.pickle')`. -/
def isPickle (f : File) : Bool := ".pickle".toList.isSuffixOf f.name.toList

/-- The files in the order in which they are read, unify_results.py:18-21; `listing` is what `os.listdir` returns. -/
def ordered (listing : List File) : List File :=
  ((listing.filter isPickle).mergeSort fun a b => decide (a.name ≤ b.name)).mergeSort fun a b => decide (a.mtime ≤ b.mtime)

/-- The script, unify_results.py:18-58: what it writes, and how it ends. -/
def unify (listing : List File) : List Artifact × Except PyErr Unit :=
  let results := (ordered listing).map File.content
  match results.mapM id with
  | none => ([.results results], .error .keyError)
  | some steps =>
    match steps with
    | [] => ([.results results, .berFigure, .rateFigure], .error .indexError)
    | s :: _ => ([.results results, .berFigure, .rateFigure,
        .summary ⟨s.rawBer, steps.map Step.rawBer, steps.map Step.ldpcBer, steps.map Step.entropyBer, steps.map Step.ldpcRate,
          steps.map Step.entropyRate⟩], .ok ())

end NR.Unify

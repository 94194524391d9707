import Verif.Model.Segmentation
/-
Model of scripts/fix_results.py, and of the end of runs/HC_eilat_July_2018/classifying_entropy_decoder_over_awgn_channel.py whose
results it saves in parts. A pickle or mat file holds the value that was saved (that pickle, lzma and `savemat` keep it is not
modelled). A dict is the list of its items, a `DataFrame` the list of its columns.
-/
namespace NR.Fix
open NR

/-- A value in the results of a step. -/
inductive Cell (α : Type) where
  | frame (columns : List (String × List α))
  | dict (items : List (String × List α))
  | plain (a : α)
  deriving DecidableEq

/-- The results of a step. -/
abbrev Step (α : Type) := List (String × Cell α)

/-- A value in a mat file. -/
inductive MatVal (α : Type) where
  | plain (a : α)
  | steps (l : List (Step α))
  | cells (l : List (Cell α))
  deriving DecidableEq

/-- `d[key]`. -/
def item {β : Type} (d : List (String × β)) (key : String) : Except PyErr β :=
  match d.lookup key with
  | none => .error .keyError
  | some v => .ok v

/-- `value.to_dict("list")`. -/
def toDict {α : Type} : Cell α → Except PyErr (Cell α)
  | .frame c => .ok (.dict c)
  | _ => .error .attributeError

/-- `step[key] = step[key].to_dict("list")`, fix_results.py:24, classifying_entropy_decoder_over_awgn_channel.py:306-308. -/
def convert {α : Type} (key : String) (step : Step α) : Except PyErr (Step α) := do
  let v ← item step key
  let d ← toDict v
  .ok (dictSet step key d)

/-- `step.pop(key).to_dict("list")`, fix_results.py:25-26: the value and the rest of the step. -/
def popDict {α : Type} (key : String) (step : Step α) : Except PyErr (Cell α × Step α) := do
  let v ← item step key
  let d ← toDict v
  .ok (d, step.filter fun p => p.1 ≠ key)

/-- classifying_entropy_decoder_over_awgn_channel.py:305-313: the last mat file of the run. -/
def wholeMat {α : Type} (summary : List (String × MatVal α)) (results : List (Step α)) : Except PyErr (List (String × MatVal α)) := do
  let results ← results.mapM fun s => do
    let s ← convert "data" s
    let s ← convert "decoded_entropy" s
    convert "decoded_ldpc" s
  .ok (dictSet summary "results" (.steps results))

/-- The three files of fix_results.py. -/
structure Parts (α : Type) where
  data : List (String × MatVal α)
  ldpc : List (String × MatVal α)
  entropy : List (String × MatVal α)

/-- fix_results.py:23-37: nothing is saved before all parts are there. -/
def fixResults {α : Type} (summary : List (String × MatVal α)) (results : List (Step α)) : Except PyErr (Parts α) := do
  let results ← results.mapM (convert "data")
  let popped ← results.mapM (popDict "decoded_entropy")
  let entropy := popped.map Prod.fst
  let popped ← (popped.map Prod.snd).mapM (popDict "decoded_ldpc")
  let ldpc := popped.map Prod.fst
  .ok { data := dictSet summary "stats" (.steps (popped.map Prod.snd)),
        ldpc := [("decoded_ldpc", .cells ldpc)],
        entropy := [("decoded_entropy", .cells entropy)] }

end NR.Fix

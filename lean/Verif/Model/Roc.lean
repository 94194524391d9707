import Verif.Model.Metrics
import Verif.Model.Segmentation
import Verif.Model.Averaged
import Mathlib.Data.List.Sort
/-
Model of the structures that scripts/classifier_analysis.py looks for in the words (:78-95), and of the curves that
analysis/plot_for_thesis.m draws from the summary files of several runs. A summary file is what `load` gives back of it. Axis
limits, labels of the axes and the exported files are not modelled, nor is the rounding of a legend entry to three decimals.
-/
namespace NR
open NR.Averaged

/-- A bit of a `Bits` object where a byte is expected: `buffer[0]` is `False` or `True`, which compare as 0 and 1. -/
def bitByte (b : Bool) : Byte := if b then 1 else 0

/-- classifier_analysis.py:50-58, 78-95: the structures for one, two and three clusters; `data` is the buffer left over from the
loop over all buffers. Buffers hold whole bytes. For three clusters the slices are not turned into bytes (:88, :90, :92). Another number of clusters leaves
`spec` without a value (:50-56). -/
def scriptStructures {ρ : Type} (parser : List Byte → Except PyErr ρ) (nClusters : Nat) (data : List Bool) :
    Except PyErr (List (List (Nat × Nat))) :=
  if nClusters = 1 then do
    let a ← segmentBuffer parser (bitsToBytes data)
    .ok [a.struct]
  else if nClusters = 2 then do
    let a ← segmentBuffer parser (bitsToBytes (data.take 576))
    let b ← segmentBuffer parser (bitsToBytes (data.drop 576))
    .ok [a.struct, b.struct]
  else if nClusters = 3 then do
    let a ← segmentBuffer parser ((data.take 416).map bitByte)
    let b ← segmentBuffer parser ((pySlice data 416 864).map bitByte)
    let c ← segmentBuffer parser ((data.drop 864).map bitByte)
    .ok [a.struct, b.struct, c.struct]
  else .error .nameError

/-- The entries of a summary file that are read, classifier_analysis.py:416-424: `args.threshold`, `args.minflip`, `args.maxflip`,
and the rows of all points. -/
structure SummaryFile where
  thr : ℝ
  minflip : ℚ
  maxflip : ℚ
  good : List (List Int)
  bad : List (List Int)

/-- `linspace(a, b, n)` of MATLAB: the last point is `b` itself, also when it is the only one. -/
def matLinspace (a b : ℚ) (n : Nat) : List ℚ :=
  (List.range n).map fun (i : Nat) => if i + 1 = n then b else a + (i : ℚ) * ((b - a) / ((n : ℚ) - 1))

/-- `sortrows(T, 'thr')`, plot_for_thesis.m:17-20: ascending, files with equal thresholds in their old order. -/
noncomputable def sortFiles (files : List SummaryFile) : List SummaryFile := files.insertionSort fun a b => a.thr ≤ b.thr

/-- `m(:, mask)` for a logical mask: the columns where it is true. -/
def pick {α : Type} (mask : List Bool) (m : List α) : List α := ((m.zip mask).filter (·.2)).map (·.1)

/-- One line of a figure: the legend, the points of the ROC curve (false positive rate, true positive rate) and of the curve of the
precision (threshold, precision). -/
structure Curve where
  label : ℚ
  roc : List (Option ℝ × Option ℝ)
  precision : List (ℝ × Option ℝ)

open Classical in
/-- The lines of the two figures for one kind of fields, plot_for_thesis.m:47-78 and :80-106: thresholds from `lo` up to but not
including 1, the points 1, 7, 13 and 19. -/
noncomputable def thesisCurves (files : List SummaryFile) (pVec : List ℚ) (rows : SummaryFile → List (List Int)) (beta lo : ℝ) :
    Except PyErr (List Curve) := do
  let m ← classifierMetrics (files.map rows) beta
  let mask := files.map fun f => decide (lo ≤ f.thr ∧ f.thr < 1)
  [0, 6, 12, 18].mapM fun (k : Nat) => match pVec[k]? with
    | none => .error .indexError
    | some p => .ok
      { label := p,
        roc := List.zipWith (fun f t => (f.getD k none, t.getD k none)) (pick mask m.fpr) (pick mask m.tpr),
        precision := List.zipWith (fun t v => (t, v.getD k none)) (pick mask (files.map (·.thr))) (pick mask m.ppv) }

/-- plot_for_thesis.m:5-106: the curves for damaged fields and for valid fields. -/
noncomputable def thesisFigures (files : List SummaryFile) : Except PyErr (List Curve × List Curve) := do
  let sorted := sortFiles files
  match sorted with
  | [] => .error .indexError
  | first :: _ =>
    let pVec := matLinspace first.minflip first.maxflip first.bad.length
    let damaged ← thesisCurves sorted pVec (·.bad) 1 (1 / 1000)
    let valid ← thesisCurves sorted pVec (·.good) (1 / 2) (1 / 100)
    .ok (damaged, valid)

end NR

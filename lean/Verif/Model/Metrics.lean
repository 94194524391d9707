import Verif.Model.Simulation
/-
Model of the numbers drawn from the analysis of the field classifier: the rows summed for the summary file,
scripts/classifier_analysis.py:391-398, and the metrics that MATLAB makes of them, analysis/classifer_confusion.m,
analysis/classifer_metrics.m, analysis/ppv.m, analysis/recall.m. Doubles are reals; a quotient by zero (NaN or an infinity in
MATLAB) is `none`. That `savemat` and `load` give back the integers, and the plots, are not modelled. MATLAB's errors for a
missing column and for an assignment of the wrong size are `indexError` and `valueError`.
-/
namespace NR

/-- `rows.sum(axis=0)` of an array with six columns, classifier_analysis.py:391-398. -/
def sumRows {α : Type} [Add α] [OfNat α 0] (rows : List (List α)) : List α :=
  rows.foldl (List.zipWith (· + ·)) (List.replicate 6 0)

/-- The row of `good_fields_performance` in the summary, classifier_analysis.py:391, for the words of one step. -/
def goodRow (rs : List WordReport) : List Int := sumRows (rs.map fun r => r.classifier.goodPerformance)

/-- The row of `bad_fields_performance`, classifier_analysis.py:392. -/
def badRow (rs : List WordReport) : List Int := sumRows (rs.map fun r => r.classifier.badPerformance)

/-- The row of `forced_fields_performance`, classifier_analysis.py:393. -/
def forcedFieldsRow (rs : List WordReport) : List Int := sumRows (rs.map fun r => r.forcing.fieldsPerformance)

/-- The row of `forced_bits_performance`, classifier_analysis.py:394. -/
def forcedBitsRow (rs : List WordReport) : List Int := sumRows (rs.map fun r => r.forcing.bitsPerformance)

/-- The row of `flipped_bits_performance`, classifier_analysis.py:398. -/
def flippedBitsRow (rs : List WordReport) : List Int := sumRows (rs.map fun r => r.forcing.flippedPerformance)

/-- The row of `forcing_quality`, classifier_analysis.py:395-397: the sums, the last divided by the number `n` of words. -/
def qualityRow (n : Nat) (rs : List WordReport) : List ℚ :=
  (sumRows (rs.map fun r => r.forcing.quality)).mapIdx fun i x => if i = 5 then x / n else x

/-- `x ./ y` for two doubles. -/
noncomputable def mdiv (x y : ℝ) : Option ℝ := if y = 0 then none else some (x / y)

/-- The columns and the tables of classifer_confusion.m. -/
structure MConfusion where
  tp : List ℝ
  fp : List ℝ
  tn : List ℝ
  fn : List ℝ
  p : List ℝ
  n : List ℝ
  cm : List (List (List ℝ))

/-- Column `k` (from 0) of a matrix of integers, as doubles, classifer_confusion.m:3-9. -/
def matCol (m : List (List Int)) (k : Nat) : Except PyErr (List ℝ) :=
  m.mapM fun r : List Int => match r[k]? with
    | none => .error .indexError
    | some x => .ok (x : ℝ)

/-- `classifer_confusion`, classifer_confusion.m:1-15. Without a row the output `cm` is never assigned, an error. -/
def matlabConfusion (m : List (List Int)) : Except PyErr MConfusion := do
  let tp ← matCol m 0
  let fp ← matCol m 1
  let tn ← matCol m 2
  let fn ← matCol m 3
  let p ← matCol m 4
  let n ← matCol m 5
  if m = [] then .error .unboundLocalError
  .ok { tp, fp, tn, fn, p, n,
        cm := List.zipWith (fun a b => [a, b]) (List.zipWith (fun x y => [x, y]) tp fn)
          (List.zipWith (fun x y => [x, y]) fp tn) }

/-- `a(:, k) = col` for a matrix of `n` rows: a single number fills the column, another length is an error. -/
def setCol {α : Type} (n : Nat) (col : List α) : Except PyErr (List α) :=
  if col.length = n then .ok col
  else match col with
    | [x] => .ok (List.replicate n x)
    | _ => .error .valueError

/-- The columns that one pass of the loop stores, classifer_metrics.m:13-20. -/
structure MetricCols where
  tpr : List (Option ℝ)
  fpr : List (Option ℝ)
  ppv : List (Option ℝ)
  acc : List (Option ℝ)
  tnr : List (Option ℝ)
  trueP : List ℝ
  falseP : List ℝ
  recl : List (Option ℝ)

/-- The body of the loop of `classifer_metrics`, classifer_metrics.m:12-20, for a matrix of `n` rows of results. -/
noncomputable def metricCols (n : Nat) (m : List (List Int)) : Except PyErr MetricCols := do
  let c ← matlabConfusion m
  let tpr ← setCol n (List.zipWith mdiv c.tp c.p)
  let fpr ← setCol n (List.zipWith mdiv c.fp c.n)
  let ppv ← setCol n (List.zipWith mdiv c.tp (List.zipWith (· + ·) c.tp c.fp))
  let acc ← setCol n (List.zipWith mdiv (List.zipWith (· + ·) c.tp c.tn) (List.zipWith (· + ·) c.p c.n))
  let tnr ← setCol n (List.zipWith mdiv c.tn c.n)
  let trueP ← setCol n c.tp
  let falseP ← setCol n c.fp
  let recl ← setCol n (List.zipWith mdiv c.tp (List.zipWith (· + ·) c.tp c.fn))
  .ok { tpr, fpr, ppv, acc, tnr, trueP, falseP, recl }

/-- One entry of `bm`, classifer_metrics.m:22. -/
noncomputable def informedness (tpr tnr : Option ℝ) : Option ℝ := do
  let x ← tpr
  let y ← tnr
  some (x + y - 1)

/-- One entry of `f1`, classifer_metrics.m:23. -/
noncomputable def fScore (beta : ℝ) (tpr ppv : Option ℝ) : Option ℝ := do
  let r ← tpr
  let p ← ppv
  mdiv ((1 + beta ^ 2) * r * p) (beta ^ 2 * r + p)

/-- What `classifer_metrics` returns; every matrix is the list of its columns, one for each threshold. -/
structure MetricTables where
  tpr : List (List (Option ℝ))
  fpr : List (List (Option ℝ))
  ppv : List (List (Option ℝ))
  acc : List (List (Option ℝ))
  bm : List (List (Option ℝ))
  f1 : List (List (Option ℝ))
  trueP : List (List ℝ)
  falseP : List (List ℝ)
  recl : List (List (Option ℝ))

/-- `classifer_metrics(fields_performance, beta)`, classifer_metrics.m:1-24. -/
noncomputable def classifierMetrics (files : List (List (List Int))) (beta : ℝ) : Except PyErr MetricTables :=
  match files with
  | [] => .error .indexError
  | first :: _ => do
    let cols ← files.mapM (metricCols first.length)
    .ok { tpr := cols.map (·.tpr), fpr := cols.map (·.fpr), ppv := cols.map (·.ppv), acc := cols.map (·.acc),
          bm := cols.map fun c => List.zipWith informedness c.tpr c.tnr,
          f1 := cols.map fun c => List.zipWith (fScore beta) c.tpr c.ppv,
          trueP := cols.map (·.trueP), falseP := cols.map (·.falseP), recl := cols.map (·.recl) }

/-- `ppv(classifer_performance)`, ppv.m:1-6. -/
noncomputable def ppvOf (m : List (List Int)) : Except PyErr (List (Option ℝ)) := do
  let c ← matlabConfusion m
  .ok (List.zipWith mdiv c.tp (List.zipWith (· + ·) c.tp c.fp))

/-- `recall(classifer_performance)`, recall.m:1-6. -/
noncomputable def recallOf (m : List (List Int)) : Except PyErr (List (Option ℝ)) := do
  let c ← matlabConfusion m
  .ok (List.zipWith mdiv c.tp (List.zipWith (· + ·) c.tp c.fn))

end NR

import Verif.Model.Turbo
/-
Model of utils/performance_analysis.py and utils/random_sources.py. Numbers are rationals; `none` is NaN.
-/
namespace NR

/-- The element types of bit arrays: signed integers, unsigned bytes, booleans. -/
inductive BitDtype where
  | signed
  | uint8
  | bool

/-- Subtraction in the element type (booleans are handled in `ber`). -/
def npSub : BitDtype → Int → Int → Int
  | .uint8, a, b => (a - b) % 256
  | _, a, b => a - b

/-- `ber`, performance_analysis.py:35-42. NumPy refuses to subtract booleans; sums are not bounded by the element type;
0/0 is NaN. -/
def ber (dt : BitDtype) (truth predicted : List Int) : Except PyErr (Option ℚ) :=
  match dt with
  | .bool => .error .typeError
  | dt => do
    let d ← bcastWith (npSub dt) truth predicted
    let total : ℚ := (d.map fun x => (|x| : Int)).sum
    .ok (if truth.length = 0 then none else some (total / truth.length))

/-- `cm[i, j]`. -/
def cmAt (cm : List (List Nat)) (i j : Nat) : Nat := (cm.getD i []).getD j 0

/-- `np.sum(cm, axis=1)[i]`. -/
def rowSum (cm : List (List Nat)) (i : Nat) : Nat := ((List.range cm.length).map fun j => cmAt cm i j).sum

/-- `np.sum(cm, axis=0)[j]`. -/
def colSum (cm : List (List Nat)) (j : Nat) : Nat := ((List.range cm.length).map fun i => cmAt cm i j).sum

/-- Division of a non-negative number by a count: NaN for 0/0 (other divisions by 0 do not occur). -/
def npDiv (a : ℚ) (b : ℚ) : Option ℚ := if b = 0 then none else some (a / b)

/-- What `stats` returns besides the matrix. -/
structure StatsOut where
  recall : List (Option ℚ)
  precision : List (Option ℚ)
  f1 : List (Option ℚ)
  accuracy : Option ℚ

/-- `_precision`, performance_analysis.py:11-20. In the second branch `no_true_positives[label] is True` compares a NumPy
boolean with the object `True` and is never true, so the value is 0. -/
def statsPrecision (cm : List (List Nat)) : List (Option ℚ) :=
  if (List.range cm.length).all fun j => colSum cm j != 0 then
    (List.range cm.length).map fun j => npDiv (cmAt cm j j) (colSum cm j)
  else (List.range cm.length).map fun j =>
    if colSum cm j = 0 then some 0 else npDiv (cmAt cm j j) (colSum cm j)

/-- Sum of two numbers one of which may be NaN. -/
def nanAdd : Option ℚ → Option ℚ → Option ℚ
  | some a, some b => some (a + b)
  | _, _ => none

/-- `2 * (p * r) / d` with NaN; `d` is not 0 here. -/
def f1Of : Option ℚ → Option ℚ → Option ℚ → Option ℚ
  | some p, some r, some d => npDiv (2 * (p * r)) d
  | _, _, _ => none

/-- `_f1`, performance_analysis.py:21-30. `denominator.all()` counts NaN as true; the last `is True` is never true. -/
def statsF1 (precision recall : List (Option ℚ)) : List (Option ℚ) :=
  let den := List.zipWith nanAdd precision recall
  if den.all fun d => d != some 0 then
    List.zipWith (fun (pr : Option ℚ × Option ℚ) d => f1Of pr.1 pr.2 d) (precision.zip recall) den
  else List.zipWith (fun (pr : Option ℚ × Option ℚ) d =>
      match d with
      | some x => if 0 < x then f1Of pr.1 pr.2 d else some 0
      | none => some 0) (precision.zip recall) den

/-- `stats` of a square confusion matrix, performance_analysis.py:5-32. -/
def stats (cm : List (List Nat)) : StatsOut :=
  let recall := (List.range cm.length).map fun i => npDiv (cmAt cm i i) (rowSum cm i)
  let precision := statsPrecision cm
  { recall, precision
    f1 := statsF1 precision recall
    accuracy := npDiv ((List.range cm.length).map fun i => cmAt cm i i).sum
      ((List.range cm.length).map fun i => rowSum cm i).sum }

/-- `sklearn.metrics.confusion_matrix` (external): over the sorted labels that occur, the entry `i, j` counts the samples
of class `i` predicted as class `j`. -/
def confusionMatrix (actual predicted : List Int) : Except PyErr (List (List Nat)) :=
  if actual.length ≠ predicted.length then .error .valueError
  else
    let labels := npUnique (actual ++ predicted)
    .ok (labels.map fun a => labels.map fun b => (actual.zip predicted).count (a, b))

/-- `initial_state` of `generate_markov_samples`: an `int` or a sequence. -/
inductive MarkovInit where
  | int (s : Nat)
  | seq (l : List Nat)

/-- A transition matrix: its shape and the rows by index tuple (an IndexError for indices out of range). -/
structure Transition where
  shape : List Nat
  row : List Nat → Except PyErr (List ℚ)

/-- `np.random.choice(range(n), p=row)` with the hidden state of the generator. -/
abbrev Chooser (G : Type) := G → List ℚ → G × Except PyErr Nat

/-- The loop of `generate_markov_samples`, random_sources.py:18-21: `left` iterations starting with `i`. Besides the
states it returns the index tuples used. -/
def markovLoop {G : Type} (choose : Chooser G) (T : Transition) (order : Nat) :
    Nat → Nat → G → List Nat → G × List (List Nat) × Except PyErr (List Nat)
  | 0, _, g, states => (g, [], .ok states)
  | left + 1, i, g, states =>
    let cur := states.drop (states.length - order)
    match T.row cur with
    | .error e => (g, [cur], .error e)
    | .ok p =>
      let (g, r) := choose g p
      match r with
      | .error e => (g, [cur], .error e)
      | .ok v =>
        let (g, used, r) := markovLoop choose T order left (i + 1) g (states.set i v)
        (g, cur :: used, r)

/-- `generate_markov_samples`, random_sources.py:4-22, for matrices with at least one dimension. -/
def generateMarkov {G : Type} (choose : Chooser G) (T : Transition) (init : MarkovInit) (n : Nat) (g : G) :
    G × List (List Nat) × Except PyErr (List Nat) :=
  let order := T.shape.length - 1
  let first : Except PyErr (List Nat) := match init with
    | .int s => if order = 1 then .ok [s] else .error .typeError
    | .seq l => if order ≠ l.length then .error .valueError else .ok l
  match first with
  | .error e => (g, [], .error e)
  | .ok l =>
    if order = 0 then (g, [], .error .indexError)
    else if T.shape.getD order 0 ≠ T.shape.getD (order - 1) 0 then (g, [], .error .valueError)
    else if n < order ∧ order ≠ 1 then (g, [], .error .valueError)
    else markovLoop choose T order (n - order) order g ((l ++ List.replicate (n - order) 0).take n)

end NR

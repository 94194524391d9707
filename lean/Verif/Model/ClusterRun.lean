import Verif.Model.Runs
import Verif.Model.Perf
import Verif.Model.Num2Bits
import Verif.Model.Simulation
/-
Model of runs/clsutering_analysis/clustering_analysis.py:35-102, 125-131. The random numbers drawn are parameters; the classifier is
any object with hidden state. The mixture model, which is scored in the same way on the same split, is not part of this model (its
own is in Model/Bmm.lean); logging, process pools and files are not modelled.
-/
namespace NR.ClusterRun
open NR

/-- The options of the script. -/
structure Opts where
  nClasses : Nat
  p : ℚ
  nTraining : Nat
  trainWithErrors : Bool
  shuffle : Bool

/-- `k`, clustering_analysis.py:48-57. -/
def infoBits (nClasses : Nat) : Except PyErr Nat :=
  if nClasses = 2 then .ok 648 else if nClasses = 3 then .ok 486 else .error .valueError

/-- What the generator supplies for one buffer: the bits of `rng.integers(low=0, high=2, size=pad_len)` and the positions of
`rng.choice(k // n_classes, size=no_errors // n_classes, replace=False)`. -/
structure Draw where
  pad : Nat → Bool
  errors : List Nat

/-- The assignment of an array to a row of `k` values: a single value is repeated, other lengths raise. -/
def assignRow (k : Nat) (b : List Bool) : Except PyErr (List Bool) :=
  if b.length = k then .ok b else if b.length = 1 then .ok (List.replicate k (b.getD 0 false)) else .error .valueError

/-- One row of `buffers`, clustering_analysis.py:65, 68-77; `noisy` is the condition on the training set. A negative size and a sample
larger than the population raise. -/
def row (n k : Nat) (p : ℚ) (noisy : Bool) (tx : List Bool) (c : Nat) (d : Draw) : Except PyErr (List Bool) :=
  if k < tx.length / n then .error .valueError
  else do
    let b ← assignRow k (pySlice tx (c * tx.length / n) ((c + 1) * tx.length / n) ++ (List.range (k - tx.length / n)).map d.pad)
    if 0 < errorCount k p ∧ noisy then
      if k / n < errorCount k p / n then .error .valueError
      else .ok (b.mapIdx fun i x => xor x (decide (i ∈ d.errors)))
    else .ok b

/-- `buffers` and `actual_classes`, clustering_analysis.py:63-78, for the transmissions `txs` (the rows of one matrix). -/
def build (o : Opts) (k : Nat) (txs : List (List Bool)) (d : Nat → Nat → Draw) : Except PyErr (List (List Bool × Nat)) :=
  ((List.range txs.length).flatMap fun t => (List.range o.nClasses).map fun c => (t, c)).mapM fun x => do
    let r ← row o.nClasses k o.p (o.trainWithErrors || decide (o.nTraining ≤ x.1)) (txs.getD x.1 []) x.2 (d x.1 x.2)
    .ok (r, x.2)

/-- `train_test_split`, clustering_analysis.py:80-89 (external): both parts must have something in them. `perm` is the order after
shuffling; that it keeps the shares of the classes is not modelled. -/
def split (o : Opts) (perm : List (List Bool × Nat) → List (List Bool × Nat)) (data : List (List Bool × Nat)) :
    Except PyErr (List (List Bool × Nat) × List (List Bool × Nat)) :=
  if 0 < o.nTraining ∧ o.nTraining < data.length then
    let l := if o.shuffle then perm data else data
    .ok (l.take o.nTraining, l.drop o.nTraining)
  else .error .valueError

/-- A classifier with hidden state. -/
abbrev Classifier (σ : Type) := σ → List Bool → σ × Except PyErr Int

/-- The loop of `analyze_mine`, clustering_analysis.py:40-41: the labels are stored as unsigned bytes. -/
def classifyAll {σ : Type} (C : Classifier σ) : σ → List (List Bool) → Except PyErr (List Int)
  | _, [] => .ok []
  | s, b :: rest => do
    let r := C s b
    let l ← r.2
    let t ← classifyAll C r.1 rest
    .ok (l % 256 :: t)

/-- `analyze_mine`, clustering_analysis.py:35-42. -/
def analyzeMine {σ : Type} (C : Classifier σ) (s : σ) (nTraining : Nat) (buffers : List (List Bool)) : Except PyErr (List Int) := do
  let l ← classifyAll C s buffers
  .ok (l.drop nTraining)

/-- The matrix of `clustering_stats`, clustering_analysis.py:45-92. -/
def analyze {σ : Type} (C : Classifier σ) (s : σ) (o : Opts) (txs : List (List Bool)) (d : Nat → Nat → Draw)
    (perm : List (List Bool × Nat) → List (List Bool × Nat)) : Except PyErr (List (List Nat)) := do
  let k ← infoBits o.nClasses
  let data ← build o k txs d
  let tt ← split o perm data
  let labels ← analyzeMine C s o.nTraining ((tt.1 ++ tt.2).map Prod.fst)
  let r ← relabel labels o.nClasses (some (tt.2.map fun x => Int.ofNat x.2))
  confusionMatrix (tt.2.map fun x => Int.ofNat x.2) r.1

/-- The matrix that is saved, clustering_analysis.py:125-127, for the matrices of at least one run: the rounded means. Matrices of
different shapes cannot be averaged. -/
def savedMatrix (cms : List (List (List Nat))) : Except PyErr (List (List Nat)) :=
  let m := (cms.getD 0 []).length
  if cms.all fun cm => cm.length = m then
    .ok ((List.range m).map fun i => (List.range m).map fun j =>
      (roundHalfEven (((cms.map fun cm => cmAt cm i j).sum : ℕ) / (cms.length : ℚ))).toNat)
  else .error .valueError

/-- `np.sum(clustering_cm)`, clustering_analysis.py:135. -/
def total (cm : List (List Nat)) : Nat := ((List.range cm.length).map fun i => rowSum cm i).sum

end NR.ClusterRun

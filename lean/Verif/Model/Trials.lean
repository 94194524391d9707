import Verif.Model.ClusterRun
import Verif.Model.Clustering
/-
Model of scripts/clustering_trials.py. The random numbers drawn are parameters; reading the recording and saving the buffers are not
modelled.
-/
namespace NR.Trials
open NR

/-- A word cut from a transmission: `b[start:stop]` followed by so many random bits. -/
structure Cut where
  start : Nat
  stop : Option Nat
  pad : Nat

/-- The constants of an option: information bits, share of wrong bits, number of training buffers, cuts (one per class). -/
structure Trial where
  k : Nat
  p : ℚ
  nTraining : Nat
  cuts : List Cut

/-- Option 1, clustering_trials.py:15-31. -/
def two : Trial := ⟨648, 7 / 100, 100, [⟨0, some 576, 648 - 576⟩, ⟨576, none, 0⟩]⟩

/-- Option 2, clustering_trials.py:55-80. -/
def three : Trial :=
  ⟨486, 7 / 100, 100, [⟨0, some 416, 486 - 416⟩, ⟨416, some 864, 486 - (864 - 416)⟩, ⟨864, none, 486 - (1224 - 864)⟩]⟩

/-- The word before errors, clustering_trials.py:26, 32, 67, 73, 79. -/
def Cut.word (c : Cut) (tx : List Bool) (pad : Nat → Bool) : List Bool :=
  (match c.stop with
    | some e => pySlice tx c.start e
    | none => tx.drop c.start) ++ (List.range c.pad).map pad

/-- `for idx in errors: corrupted[idx] = not corrupted[idx]`, clustering_trials.py:27-28, 33-34, 68-69, 74-75, 80-81. -/
def spoil : List Bool → List Nat → Except PyErr (List Bool)
  | w, [] => .ok w
  | w, e :: es =>
    match w[e]? with
    | some x => spoil (w.set e (!x)) es
    | none => .error .indexError

/-- `buffers`, clustering_trials.py:24-35 and 65-82, with the draws for each transmission and class. -/
def build (T : Trial) (txs : List (List Bool)) (d : Nat → Nat → ClusterRun.Draw) : Except PyErr (List (List Bool × Nat)) :=
  ((List.range txs.length).flatMap fun t => (List.range T.cuts.length).map fun c => (t, c)).mapM fun x => do
    let w ← spoil ((T.cuts.getD x.2 ⟨0, none, 0⟩).word (txs.getD x.1 []) (d x.1 x.2).pad) (d x.1 x.2).errors
    .ok (w, x.2)

/-- The loop filling `labels`, clustering_trials.py:49-51 and 93-95. -/
def labelAll {μ δ : Type} (m : Metrics μ δ) (st : Classifier) : List (List Bool) → Except PyErr (List Int)
  | [] => .ok []
  | b :: bs => do
    let (l, st) ← st.classify m b
    let ls ← labelAll m st bs
    .ok (l :: ls)

/-- `l[start::step]` with a positive step. -/
def stride (l : List Int) (start step : Nat) : List Int := (List.range l.length).filterMap fun j => l[start + j * step]?

/-- `np.unique(l, return_counts=True)` as pairs. -/
def uniqueCounts (l : List Int) : List (Int × Nat) := (npUnique l).map fun v => (v, l.count v)

/-- `result_1` and `result_2`, clustering_trials.py:52 and 96, for at least one training buffer. -/
def results (T : Trial) (labels : List Int) : List (List (Int × Nat)) :=
  (List.range T.cuts.length).map fun i => uniqueCounts (stride labels (T.nTraining - 1 + i) T.cuts.length)

/-- One option of the script, clustering_trials.py:15-52 and 55-96. -/
def run {μ δ : Type} (m : Metrics μ δ) (T : Trial) (txs : List (List Bool)) (d : Nat → Nat → ClusterRun.Draw) :
    Except PyErr (List (List (Int × Nat))) := do
  let data ← build T txs d
  let labels ← labelAll m { minData := T.nTraining, k := T.cuts.length } (data.map Prod.fst)
  .ok (results T labels)

end NR.Trials

import Verif.Model.InfoTheory
import Verif.Model.BitOps
/-
Model of inference/clustering.py. Buffers are non-empty bit lists. Arithmetic is exact.
-/
namespace NR

/-- `Cluster`, clustering.py:10-14. `data` is the `_data` matrix: one row per bit position. It has one column per letter
of the first buffer, so two columns (zeros, ones) unless that buffer is constant. -/
structure Cluster where
  data : List (List Int)
  uid : Int
  n : Nat
  deriving DecidableEq

/-- Conversion of a number to an integer array element: truncation towards zero. -/
def truncQ (q : ℚ) : Int := q.num.tdiv q.den

/-- `Cluster.__init__`, clustering.py:11-14. -/
def Cluster.new (dist : List (List ℚ)) (uid : Int) (n : Nat := 1) : Cluster :=
  ⟨dist.map fun r => r.map fun x => truncQ (x * n), uid, n⟩

/-- `Cluster.dist`, clustering.py:20-22. -/
def Cluster.dist (c : Cluster) : List (List ℚ) := c.data.map fun r => r.map fun x => (x : ℚ) / (c.n : ℚ)

/-- `m[:, j]`: IndexError if there is no such column. -/
def column {α : Type} (j : Nat) (m : List (List α)) : Except PyErr (List α) :=
  m.mapM fun r => match r[j]? with
    | some x => .ok x
    | none => .error .indexError

/-- `Cluster.hard_bits`, clustering.py:16-18. -/
def Cluster.hardBits (c : Cluster) : Except PyErr (List Int) := do
  let ones ← column 1 c.data
  let p0 ← column 0 c.dist
  .ok (ones.zipWith (fun (o : Int) (p : ℚ) => if (o : ℚ) > p then 1 else 0) p0)

/-- Lines 26 and 27 on one row. -/
def addRow (x : Bool) : List Int → Except PyErr (List Int)
  | z :: o :: rest => .ok ((z + if x = false then 1 else 0) :: (o + if x = true then 1 else 0) :: rest)
  | _ => .error .indexError

/-- `Cluster.add_sample`, clustering.py:24-28. Simplifications: a buffer of another length raises ValueError even if it
has length one (numpy would broadcast it); the state after an exception is not modelled. -/
def Cluster.addSample (c : Cluster) (b : List Bool) : Except PyErr Cluster :=
  if b.length ≠ c.data.length then .error .valueError
  else do
    let data ← (c.data.zip b).mapM fun rx => addRow rx.2 rx.1
    .ok { c with data := data, n := c.n + 1 }

/-- `r1 += r2` on rows with numpy broadcasting of a single column. -/
def mergeRow (r1 r2 : List Int) : Except PyErr (List Int) :=
  if r1.length = r2.length then .ok (r1.zipWith (· + ·) r2)
  else match r2 with
    | [x] => .ok (r1.map (· + x))
    | _ => .error .valueError

/-- `Cluster.merge_cluster`, clustering.py:30-32. Simplification: as for `addSample`. -/
def Cluster.merge (c d : Cluster) : Except PyErr Cluster :=
  if c.data.length ≠ d.data.length then .error .valueError
  else do
    let data ← (c.data.zip d.data).mapM fun rs => mergeRow rs.1 rs.2
    .ok { c with data := data, n := c.n + d.n }

/-- The metrics: `score` is the quantity computed for one cluster in `classify` (clustering.py:74-86) and `better` the
comparison with the best so far; `mdist` and `less` are those of `merge_clusters` (lines 102-117). -/
structure Metrics (μ δ : Type) where
  score : List Bool → Cluster → Except PyErr μ
  better : μ → μ → Bool
  mdist : Cluster → Cluster → Except PyErr δ
  less : δ → δ → Bool

/-- `BufferClassifier.__init__`, clustering.py:42-60. -/
structure Classifier where
  minData : Int
  k : Int
  clusters : List Cluster := []
  init : Bool := false
  nextUid : Nat := 0
  samples : Nat := 0

/-- The loop shared by lines 72-86 and 100-117: keep the first best element (`metric is None or better`). -/
def pickBest {α μ : Type} (score : α → Except PyErr μ) (better : μ → μ → Bool) :
    List α → Option (μ × α) → Except PyErr (Option (μ × α))
  | [], best => .ok best
  | x :: xs, best => do
    let s ← score x
    match best with
    | none => pickBest score better xs (some (s, x))
    | some (m, y) => if better s m then pickBest score better xs (some (s, x)) else pickBest score better xs (some (m, y))

/-- `itertools.combinations(range(n), 2)`, line 99. -/
def pairs (n : Nat) : List (Nat × Nat) :=
  (List.range n).flatMap fun i => ((List.range n).drop (i + 1)).map fun j => (i, j)

/-- The weighted distance of the clusters at positions `p.1` and `p.2`. -/
def Metrics.pairDist {μ δ : Type} (m : Metrics μ δ) (cs : List Cluster) (p : Nat × Nat) : Except PyErr δ :=
  match cs[p.1]?, cs[p.2]? with
  | some c, some d => m.mdist c d
  | _, _ => .error .indexError

/-- One iteration of the `while`, clustering.py:97-119. The variable `pair` keeps its value from the previous iteration
if there is no pair. -/
def mergeStep {μ δ : Type} (m : Metrics μ δ) (pair : Option (Nat × Nat)) (cs : List Cluster) :
    Except PyErr ((Nat × Nat) × List Cluster) := do
  let best ← pickBest (m.pairDist cs) m.less (pairs cs.length) none
  let pair := match best with
    | some (_, p) => some p
    | none => pair
  match pair with
  | none => .error .unboundLocalError
  | some (i, j) =>
    match cs[j]? with
    | none => .error .indexError
    | some c =>
      let cs := cs.eraseIdx j
      match cs[i]? with
      | none => .error .indexError
      | some d => do
        let d ← d.merge c
        .ok ((i, j), cs.set i d)

/-- The `while` loop, clustering.py:97-119, with at most `fuel` iterations (the number of clusters suffices). -/
def mergeLoop {μ δ : Type} (m : Metrics μ δ) (k : Int) : Nat → Option (Nat × Nat) → List Cluster → Except PyErr (List Cluster)
  | 0, _, cs => .ok cs
  | fuel + 1, pair, cs =>
    if (cs.length : Int) > k then do
      let (pair, cs) ← mergeStep m pair cs
      mergeLoop m k fuel (some pair) cs
    else .ok cs

/-- `merge_clusters`, clustering.py:96-121. -/
def mergeClusters {μ δ : Type} (m : Metrics μ δ) (k : Int) (cs : List Cluster) : Except PyErr (List Cluster) := do
  let cs ← mergeLoop m k (cs.length + 1) none cs
  .ok (cs.mapIdx fun i c => { c with uid := (i : Int) })

/-- The column vector of a buffer, clustering.py:65. -/
def columnOf (b : List Bool) : IntArr := .d2 1 (b.map fun x => [if x then 1 else 0])

/-- Lines 68-70 of `classify`: merge when the training phase is over. -/
def Classifier.ready {μ δ : Type} (m : Metrics μ δ) (st : Classifier) : Except PyErr Classifier :=
  if st.init then .ok st
  else do
    let cs ← mergeClusters m st.k st.clusters
    .ok { st with clusters := cs, init := true }

/-- Lines 72-89 of `classify`: choose a cluster and add the sample to it. -/
def Classifier.choose {μ δ : Type} (m : Metrics μ δ) (st : Classifier) (b : List Bool) : Except PyErr (Int × Classifier) := do
  let best ← pickBest (fun ci : Cluster × Nat => m.score b ci.1) m.better st.clusters.zipIdx none
  match best with
  | none => .error .unboundLocalError
  | some (_, (c, i)) => do
    let c' ← c.addSample b
    .ok (c.uid, { st with clusters := st.clusters.set i c' })

/-- `classify`, clustering.py:62-89; returns the label and the new state. -/
def Classifier.classify {μ δ : Type} (m : Metrics μ δ) (st : Classifier) (b : List Bool) : Except PyErr (Int × Classifier) := do
  let st := { st with samples := st.samples + 1 }
  if (st.samples : Int) < st.minData then
    let dist ← prob (columnOf b)
    .ok (-1, { st with clusters := st.clusters ++ [Cluster.new dist st.nextUid], nextUid := st.nextUid + 1 })
  else
    let st ← st.ready m
    st.choose m b

/-- The Hamming metric, clustering.py:74-78. -/
def hammingScore (b : List Bool) (c : Cluster) : Except PyErr Nat := do
  let h ← c.hardBits
  hammingDistance (.bits b) (.array h)

/-- `np.clip`. -/
noncomputable def clipR (lo hi x : ℝ) : ℝ := min hi (max lo x)

/-- `np.mean` of a non-empty list. -/
noncomputable def meanR (l : List ℝ) : ℝ := l.sum / l.length

/-- The log-likelihood of a buffer, clustering.py:80-83, over the reals with `eps = 2^-52`. -/
noncomputable def llScore (b : List Bool) (c : Cluster) : Except PyErr ℝ := do
  let p1 ← column 1 c.dist
  let p0 ← column 0 c.dist
  if b.length ≠ c.data.length then .error .valueError
  else .ok (meanR (((p1.zip p0).zip b).map fun x =>
    clipR (-100) 0 (Real.log ((x.1.1 : ℝ) + 2 ^ (-52 : ℤ)) * (if x.2 then 1 else 0) +
      Real.log ((x.1.2 : ℝ) + 2 ^ (-52 : ℤ)) * (1 - if x.2 then 1 else 0))))

/-- `weight_scheme`. -/
inductive Weight where
  | sqrt | linear | none
  deriving DecidableEq

/-- Lines 102-108. -/
noncomputable def Weight.of : Weight → Nat → Nat → ℝ
  | .sqrt, a, b => √(((a : ℝ) + b) / 2)
  | .linear, a, b => ((a : ℝ) + b) / 2
  | .none, _, _ => 1

/-- `pk * qk` of two rows with broadcasting of a single column. -/
def bcast {α : Type} (p q : List α) : Except PyErr (List α × List α) :=
  if p.length = q.length then .ok (p, q)
  else match p, q with
    | [x], q => .ok (q.map fun _ => x, q)
    | p, [y] => .ok (p, p.map fun _ => y)
    | _, _ => .error .valueError

end NR

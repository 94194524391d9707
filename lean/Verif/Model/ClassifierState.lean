import Verif.Model.Clustering
/-
Model of what the methods of inference/clustering.py leave behind when they raise. Model/Clustering.lean says what they return.
-/
namespace NR

/-- `r[0] += x` and `r[1] += x` on a row. -/
def bumpAt (j : Nat) (r : List Int) (x : Bool) : List Int := r.modify j (· + if x then 1 else 0)

/-- `Cluster.add_sample`, clustering.py:24-28: line 26 changes the first column before line 27 can raise. Simplification: a buffer of
length one that does not fit raises (numpy would broadcast it). -/
def Cluster.addSampleS (c : Cluster) (b : List Bool) : Cluster × Except PyErr Unit :=
  if b.length ≠ c.data.length then (c, .error .valueError)
  else if c.data.any fun r => r.length < 1 then (c, .error .indexError)
  else
    let c := { c with data := List.zipWith (bumpAt 0) c.data (b.map (! ·)) }
    if c.data.any fun r => r.length < 2 then (c, .error .indexError)
    else ({ c with data := List.zipWith (bumpAt 1) c.data b, n := c.n + 1 }, .ok ())

/-- One iteration of the `while`, clustering.py:97-119, and the list of clusters it leaves. The cluster taken out of the list in line
118 is lost if line 119 raises; line 31 raises without changing anything. -/
def mergeStepS {μ δ : Type} (m : Metrics μ δ) (pair : Option (Nat × Nat)) (cs : List Cluster) :
    List Cluster × Except PyErr (Nat × Nat) :=
  match pickBest (m.pairDist cs) m.less (pairs cs.length) none with
  | .error e => (cs, .error e)
  | .ok best =>
    let pair := match best with
      | some (_, p) => some p
      | none => pair
    match pair with
    | none => (cs, .error .unboundLocalError)
    | some (i, j) =>
      match cs[j]? with
      | none => (cs, .error .indexError)
      | some c =>
        let cs := cs.eraseIdx j
        match cs[i]? with
        | none => (cs, .error .indexError)
        | some d =>
          match d.merge c with
          | .error e => (cs, .error e)
          | .ok d => (cs.set i d, .ok (i, j))

/-- The `while` loop, clustering.py:97-119. -/
def mergeLoopS {μ δ : Type} (m : Metrics μ δ) (k : Int) : Nat → Option (Nat × Nat) → List Cluster → List Cluster × Except PyErr Unit
  | 0, _, cs => (cs, .ok ())
  | fuel + 1, pair, cs =>
    if (cs.length : Int) > k then
      match mergeStepS m pair cs with
      | (cs, .error e) => (cs, .error e)
      | (cs, .ok pair) => mergeLoopS m k fuel (some pair) cs
    else (cs, .ok ())

/-- Lines 68-70 of `classify` with `merge_clusters`, lines 96-121. -/
def Classifier.readyS {μ δ : Type} (m : Metrics μ δ) (st : Classifier) : Classifier × Except PyErr Unit :=
  if st.init then (st, .ok ())
  else
    match mergeLoopS m st.k (st.clusters.length + 1) none st.clusters with
    | (cs, .error e) => ({ st with clusters := cs }, .error e)
    | (cs, .ok ()) => ({ st with clusters := cs.mapIdx fun i c => { c with uid := (i : Int) }, init := true }, .ok ())

/-- Lines 72-89 of `classify`. -/
def Classifier.chooseS {μ δ : Type} (m : Metrics μ δ) (st : Classifier) (b : List Bool) : Classifier × Except PyErr Int :=
  match pickBest (fun ci : Cluster × Nat => m.score b ci.1) m.better st.clusters.zipIdx none with
  | .error e => (st, .error e)
  | .ok none => (st, .error .unboundLocalError)
  | .ok (some (_, (c, i))) =>
    match c.addSampleS b with
    | (c', .error e) => ({ st with clusters := st.clusters.set i c' }, .error e)
    | (c', .ok ()) => ({ st with clusters := st.clusters.set i c' }, .ok c.uid)

/-- `classify`, clustering.py:62-89: the classifier afterwards, and the label or the exception. -/
def Classifier.classifyS {μ δ : Type} (m : Metrics μ δ) (st : Classifier) (b : List Bool) : Classifier × Except PyErr Int :=
  let st := { st with samples := st.samples + 1 }
  if (st.samples : Int) < st.minData then
    match prob (columnOf b) with
    | .error e => (st, .error e)
    | .ok dist => ({ st with clusters := st.clusters ++ [Cluster.new dist st.nextUid], nextUid := st.nextUid + 1 }, .ok (-1))
  else
    match st.readyS m with
    | (st, .error e) => (st, .error e)
    | (st, .ok ()) => st.chooseS m b

end NR

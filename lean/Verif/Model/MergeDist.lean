import Verif.Model.Clustering
import Mathlib.Data.EReal.Inv
/-
Model of the distances by which inference/clustering.py merges clusters.
-/
namespace NR

/-- `scipy.special.rel_entr`, used by `scipy.stats.entropy(pk, qk)`. -/
noncomputable def relEntr (x y : ℝ) : EReal :=
  open Classical in
  if 0 < x ∧ 0 < y then ((x * Real.log (x / y) : ℝ) : EReal) else if x = 0 ∧ 0 ≤ y then 0 else ⊤

/-- One row of `scipy.stats.entropy(pk, qk, base=base, axis=1)`, called at clustering.py:110-111: `pk` is normalised,
the rows are broadcast against each other, and then `qk` is normalised. Infinite values are `⊤`. Simplification: rows
with a positive sum. -/
noncomputable def scipyKL (pk qk : List ℝ) (base : ℝ) : Except PyErr EReal := do
  let (p, q) ← bcast (pk.map fun x => x / pk.sum) qk
  .ok ((p.zipWith relEntr (q.map fun y => y / q.sum)).sum / ((Real.log base : ℝ) : EReal))

/-- `np.clip` of a possibly infinite number to two finite bounds. -/
noncomputable def clipE (lo hi : ℝ) (x : EReal) : ℝ := (min (hi : EReal) (max (lo : EReal) x)).toReal

/-- The merge distance of lines 102-112 with `merge_dist == "KlDiv"`, over the reals. -/
noncomputable def klDist (w : Weight) (c d : Cluster) : Except PyErr ℝ := do
  if c.data.length ≠ d.data.length then .error .valueError
  else
    let js ← (c.dist.zip d.dist).mapM fun pq => do
      let a ← scipyKL (pq.1.map fun (x : ℚ) => (x : ℝ)) (pq.2.map fun (x : ℚ) => (x : ℝ)) 2
      let b ← scipyKL (pq.2.map fun (x : ℚ) => (x : ℝ)) (pq.1.map fun (x : ℚ) => (x : ℝ)) 2
      .ok (clipE 0 10 (a + b))
    .ok (w.of c.n d.n * meanR js)

/-- The merge distance of lines 102-114 with Hellinger distances, over the reals. -/
noncomputable def hellingerMerge (w : Weight) (c d : Cluster) : Except PyErr ℝ := do
  if c.data.length ≠ d.data.length then .error .valueError
  else
    let hs ← (c.dist.zip d.dist).mapM fun pq => do
      let (p, q) ← bcast (pq.1.map fun (x : ℚ) => (x : ℝ)) (pq.2.map fun (x : ℚ) => (x : ℝ))
      .ok (hellingerVec p q)
    .ok (w.of c.n d.n * meanR hs)

/-- `self.merge_dist`: "KlDiv", anything else being Hellinger. -/
inductive MergeDist where
  | klDiv | hellinger
  deriving DecidableEq

/-- Lines 109-114. -/
noncomputable def MergeDist.of : MergeDist → Weight → Cluster → Cluster → Except PyErr ℝ
  | .klDiv => klDist
  | .hellinger => hellingerMerge

end NR

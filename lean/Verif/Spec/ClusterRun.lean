import Verif.Model.ClusterRun
import Verif.Spec.Simulation
import Verif.Spec.Bits
/-
What the clustering analysis is meant to do with transmissions: cut each into equal parts, pad the parts with random bits, damage
some of the bits.
-/
namespace NR.Spec
open NR NR.ClusterRun

/-- Part number `c` of a transmission cut into `n` parts of equal length. -/
def part (n : Nat) (tx : List Bool) (c : Nat) : List Bool := (tx.drop (c * (tx.length / n))).take (tx.length / n)

/-- The part padded to `k` bits with the random bits drawn. -/
def padded (n k : Nat) (tx : List Bool) (c : Nat) (d : Draw) : List Bool :=
  part n tx c ++ (List.range (k - tx.length / n)).map d.pad

/-- The positions drawn: so many different ones below `k / n`. -/
structure Drawn (n k : Nat) (p : ℚ) (d : Draw) : Prop where
  nodup : d.errors.Nodup
  count : d.errors.length = errorCount k p / n
  range : ∀ e ∈ d.errors, e < k / n

/-- The bits of transmission `t`, part `c`, that are inverted. -/
def damagedAt (o : Opts) (d : Nat → Nat → Draw) (t c : Nat) : List Nat :=
  if o.trainWithErrors = true ∨ o.nTraining ≤ t then (d t c).errors else []

/-- The buffer that comes from part `c` of transmission `t`. -/
def bufferOf (o : Opts) (k : Nat) (txs : List (List Bool)) (d : Nat → Nat → Draw) (t c : Nat) : List Bool :=
  flipAt (padded o.nClasses k (txs.getD t []) c (d t c)) (damagedAt o d t c)

end NR.Spec

import Verif.Model.Trials
import Verif.Spec.Simulation
import Verif.Spec.Bits
/-
What the clustering trials are meant to do: cut each transmission at message boundaries, pad, damage, label, and count the labels of
each class after training.
-/
namespace NR.Spec
open NR

/-- The two (three) groups of messages in a transmission. -/
def twoParts (tx : List Bool) : List (List Bool) := [tx.take 576, tx.drop 576]
def threeParts (tx : List Bool) : List (List Bool) := [tx.take 416, (tx.drop 416).take 448, tx.drop 864]

/-- A part filled up to `k` bits with random bits. -/
def filled (k : Nat) (part : List Bool) (pad : Nat → Bool) : List Bool := part ++ (List.range (k - part.length)).map pad

/-- `count` different positions among `k`. -/
structure Positions (k count : Nat) (errors : List Nat) : Prop where
  nodup : errors.Nodup
  count : errors.length = count
  range : ∀ e ∈ errors, e < k

/-- How many buffers of class `cls`, from buffer number `first` on, got label `v`. -/
def labelled (classes : List Nat) (labels : List Int) (first cls : Nat) (v : Int) : Nat :=
  (List.range labels.length).countP fun j => decide (first ≤ j ∧ classes[j]? = some cls ∧ labels[j]? = some v)

end NR.Spec

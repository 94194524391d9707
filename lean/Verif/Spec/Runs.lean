import Verif.Model.DecodingRuns
import Verif.Spec.Simulation
import Verif.Spec.Bits
/-
What the rates of a decoding run mean.
-/
namespace NR.Spec
open NR

/-- What a decoder returns for a sequence of inputs, starting in state `s`. -/
def outputs {σ : Type} (A : Coder σ) : σ → List (List ℝ × Option (List Nat)) → List (Except PyErr (List Bool × Bool))
  | _, [] => []
  | s, x :: xs => (A s x.1 x.2).2 :: outputs A (A s x.1 x.2).1 xs

/-- The inputs of both decoders in a simulation: the ratios of each word with its errors inverted. -/
noncomputable def simInputs (p : ℝ) (words : List (List Bool × List Nat)) : List (List ℝ × Option (List Nat)) :=
  words.map fun w => (channelLlr p (flipAt w.1 w.2), some w.2)

/-- How many estimates equal the word sent. -/
def exact (est sent : List (List Bool)) : Nat := (est.zip sent).countP fun x => decide (x.1 = x.2)

/-- How many bits of all estimates differ from the bit sent. -/
def wrongBits (est sent : List (List Bool)) : Nat := ((est.zip sent).map fun x => diffCount x.1 x.2).sum

/-! ### Recorded experiments -/

/-- The word sent is known. -/
def Known (r : Recorded) : Prop := r.tx.head? ≠ some 2

instance : DecidablePred Known := fun r => by unfold Known; infer_instance

/-- A recorded word of `n` bits: the word sent consists of bits, or of twos if it is not known. -/
structure Proper (n : Nat) (r : Recorded) : Prop where
  pos : 0 < n
  tx : r.tx.length = n
  rx : r.rx.length = n
  values : (∀ x ∈ r.tx, x < 2) ∨ ∀ x ∈ r.tx, x = 2

/-- The bits sent. -/
def sent (r : Recorded) : List Bool := r.tx.map fun x => decide (x = 1)

/-- Where the hard decisions of a known word are wrong. -/
noncomputable def wrongAt (r : Recorded) : List Nat :=
  if Known r then positions r.tx.length fun i => (hardBits r.rx).getD i false ≠ (sent r).getD i false else []

/-- How many bits of the estimates of known words differ from the bit sent. -/
def wrongKnown (est : List (List Bool)) (data : List Recorded) : Nat :=
  ((est.zip data).map fun x => if Known x.2 then diffCount x.1 (sent x.2) else 0).sum

end NR.Spec

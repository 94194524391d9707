import Verif.Spec.Metrics
/-
Curves over thresholds: fields as they were received, and the shares of them below or above a threshold.
-/
namespace NR.Spec
open NR

/-- A field as received: the score the model gives its value, and whether an error fell into it. -/
structure Received where
  score : ℝ
  damaged : Bool

/-- The fields of a word with this structure and these errors. -/
noncomputable def wordFields (score : Place → ℝ) (st : List (Nat × Nat)) (errors : List Nat) : List Received :=
  (fieldPlaces st).map fun q => ⟨score q, decide (∃ e ∈ errors, HitBy q e)⟩

open Classical in
/-- The share of the damaged fields (of the undamaged ones, if `dmg` is false) whose score satisfies `P`. -/
noncomputable def shareOf (fs : List Received) (dmg : Bool) (P : ℝ → Prop) : Option ℝ :=
  ratioOf (fs.filter fun f => f.damaged == dmg && decide (P f.score)).length (fs.filter fun f => f.damaged == dmg).length

open Classical in
/-- Among the fields whose score satisfies `P`, the share of the damaged (undamaged) ones. -/
noncomputable def precisionOf (fs : List Received) (dmg : Bool) (P : ℝ → Prop) : Option ℝ :=
  ratioOf (fs.filter fun f => f.damaged == dmg && decide (P f.score)).length (fs.filter fun f => decide (P f.score)).length

/-- One rate is at most another; rates that do not exist only compare with each other. -/
def AtMost : Option ℝ → Option ℝ → Prop
  | some x, some y => x ≤ y
  | none, none => True
  | _, _ => False

end NR.Spec

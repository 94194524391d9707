import Verif.Model.Analysis
import Verif.Spec.Layout
/-
Confusion tables over positions `0, …, n-1`.
-/
namespace NR.Spec
open NR

/-- How many positions below `n` satisfy `P`. -/
def countBelow (n : Nat) (P : Nat → Prop) [DecidablePred P] : Nat := (List.range n).countP fun i => decide (P i)

/-- `t` is the confusion table over the positions below `n`, of which `pred` are predicted and `act` actually are positive. -/
structure IsTable (n : Nat) (pred act : Nat → Prop) [DecidablePred pred] [DecidablePred act] (t : Confusion) : Prop where
  tp : t.tp = countBelow n fun i => pred i ∧ act i
  fp : t.fp = countBelow n fun i => pred i ∧ ¬ act i
  tn : t.tn = (countBelow n fun i => ¬ pred i ∧ ¬ act i : ℕ)
  fn : t.fn = countBelow n fun i => ¬ pred i ∧ act i
  positive : t.positive = countBelow n act
  negative : t.negative = (countBelow n fun i => ¬ act i : ℕ)

/-- The error at bit `e` lies in the field. -/
def HitBy (p : Place) (e : Nat) : Prop := p.Has (e / 8)

instance (p : Place) (e : Nat) : Decidable (HitBy p e) := by unfold HitBy; infer_instance

/-- Field number `i` of the structure contains an error. -/
def Damaged (st : List (Nat × Nat)) (errors : List Nat) (i : Nat) : Prop :=
  ∃ p, (fieldPlaces st)[i]? = some p ∧ ∃ e ∈ errors, HitBy p e

instance (st : List (Nat × Nat)) (errors : List Nat) : DecidablePred (Damaged st errors) := fun i =>
  match h : (fieldPlaces st)[i]? with
  | none => .isFalse (by rintro ⟨p, hp, _⟩; rw [h] at hp; cases hp)
  | some p => if h2 : ∃ e ∈ errors, HitBy p e then .isTrue ⟨p, h, h2⟩
    else .isFalse (by rintro ⟨q, hq, h3⟩; rw [h] at hq; cases hq; exact h2 h3)

/-- How many errors lie in some field. -/
def hits (st : List (Nat × Nat)) (errors : List Nat) : Nat :=
  errors.countP fun e => decide (∃ p ∈ fieldPlaces st, HitBy p e)

end NR.Spec

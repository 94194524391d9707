import Verif.Spec.Decoder
import Verif.Model.Decoder
import Mathlib.Data.Finset.Card
/-
Words sent and received, for C147 and C148.
-/
namespace NR.C147
open NR NR.Spec

/-- How many bits of the word sent are received wrong. -/
noncomputable def errors (x : List Bool) (w : List ℝ) : Nat := ((Finset.range x.length).filter fun i => (hardWord w)[i]? ≠ x[i]?).card

/-- How many of those not at the given positions. -/
noncomputable def errorsOff (idx : List Nat) (x : List Bool) (w : List ℝ) : Nat :=
  ((Finset.range x.length).filter fun i => i ∉ idx ∧ (hardWord w)[i]? ≠ x[i]?).card

/-- The decoder finds every word of the code from any word of ratios with at most `T` wrong bits, and reports success. -/
def Corrects {Λ : Type} (ldpc : Ldpc Λ) (code : List Bool → Prop) (T : Nat) : Prop :=
  ∀ (s : Λ) (x : List Bool) (w : List ℝ), code x → w.length = x.length → errors x w ≤ T →
    (ldpc s (.llr w)).2.success = true ∧ (ldpc s (.llr w)).2.estimate = x

/-- With at most `E` wrong bits the LDPC decoder never reports success with another word than the one sent. -/
def Detects {Λ : Type} (ldpc : Ldpc Λ) (code : List Bool → Prop) (E : Nat) : Prop :=
  ∀ (s : Λ) (x : List Bool) (w : List ℝ), code x → w.length = x.length → errors x w ≤ E → (ldpc s (.llr w)).2.success = true →
    (ldpc s (.llr w)).2.estimate = x

end NR.C147

import Verif.Spec.Dude
import Verif.Spec.Decoder
import Verif.Model.DudeDecoder
import Mathlib.Analysis.SpecialFunctions.Log.Basic
/-
What the DUDE decoder adds to a received word, in terms of the earlier words of the same cluster.
-/
namespace NR.Spec

/-- A bit as a symbol. -/
def sym (b : Bool) : Int := if b then 1 else 0

/-- The probability that a bit received as `z` over a binary symmetric channel with flip probability `f` was sent as one, when in
the same context zero was received `m0` times and one `m1` times: the counts corrected for the channel, at least one each, times
the probabilities of receiving `z`. -/
noncomputable def onePosterior (f : ℝ) (m0 m1 : ℕ) (z : Bool) : ℝ :=
  let w0 := max 1 (((1 - f) * m0 - f * m1) / (1 - 2 * f)) * (if z then f else 1 - f)
  let w1 := max 1 (((1 - f) * m1 - f * m0) / (1 - 2 * f)) * (if z then 1 - f else f)
  w1 / (w0 + w1)

/-- The same from the earlier values of the bit: the contexts are the `k` preceding values; as long as there are fewer than `k`
the received bit is believed. -/
noncomputable def oneProb (f : ℝ) (k : Nat) (past : List Bool) (z : Bool) : ℝ :=
  if past.length < k then (if z then 1 else 0)
  else
    let obs := (past ++ [z]).map sym
    onePosterior f (followCount obs k past.length 0) (followCount obs k past.length 1) z

/-- The weight of a model made of `n` words. -/
noncomputable def trust (n : Nat) (center slope : ℝ) : ℝ :=
  if n ≤ 1 then 0 else 1 / (1 + Real.exp (-((n : ℝ) - center) * slope))

/-- What is added to the log-likelihood ratio of a bit received as `z`. -/
noncomputable def dudeTerm (f : ℝ) (k : Nat) (center slope : ℝ) (past : List Bool) (z : Bool) : ℝ :=
  trust (past.length + 1) center slope *
    Real.log ((1 - oneProb f k past z + 2 ^ (-52 : ℤ)) / (oneProb f k past z + 2 ^ (-52 : ℤ)))

/-- The earlier words that were decoded with label `l`. -/
def ownWords {σ Λ : Type} (l : Nat) (words : List (List ℝ)) (steps : List (DudeStep σ Λ)) : List (List ℝ) :=
  (words.zip steps).filterMap fun e => match e.2.result with
    | .ok out => if out.label = l then some e.1 else none
    | .error _ => none

open Classical in
/-- The received values of bit `i` in a list of words. -/
noncomputable def bitHistory (i : Nat) (words : List (List ℝ)) : List Bool := words.map fun w => decide (w.getD i 0 < 0)

/-- The largest magnitude in a word. -/
def IsPeak (w : List ℝ) (m : ℝ) : Prop := (∃ v ∈ w, |v| = m) ∧ ∀ v ∈ w, |v| ≤ m

end NR.Spec

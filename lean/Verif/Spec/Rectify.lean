import Verif.Spec.Layout
import Verif.Spec.Segment
import Verif.Spec.DudeDecoder
import Verif.Spec.Window
import Verif.Spec.MavDecoder
/-
What the MAVLink decoder hands to the LDPC decoder, bit by bit.
-/
namespace NR.Spec
open NR

/-- What the field models say about a bit of a field: the score and the deviation for the value received in the field, and the
value of the bit in the field's mean. -/
structure BitSays where
  score : ℝ
  std : ℝ
  mean : Bool

/-- The value received cannot be right: it has no probability and the field never changed. -/
def BitSays.Wrong (b : BitSays) : Prop := b.score ≤ 0 ∧ b.std = 0

open Classical in
/-- A log-likelihood ratio `x` after the field models. Bits outside the fields stay. A bit of a wrong field gets the mean's
value with the magnitude `peak`. Otherwise the ratio is multiplied by `vf` if the score is above `1 - validThr` and by `ivf` if
it is below `invalidThr`. -/
noncomputable def rectifiedBit (validThr invalidThr vf ivf peak x : ℝ) : Option BitSays → ℝ
  | none => x
  | some b =>
    if b.Wrong then (if b.mean then -1 else 1) * (peak * max vf 1)
    else x * (if 1 - validThr < b.score then vf else 1) * (if b.score < invalidThr then ivf else 1)

/-- Bit `i` belongs to one of the messages. -/
def InMessages (msgs : List (Nat × Nat)) (i : Nat) : Prop := ∃ r ∈ msgs, Covers r (i / 8)

open Classical in
/-- The ratio handed over, from the received one `x` and the rectified one `y`: if there are messages `rx` in the received
word, their bits are strengthened; else bits of the messages `mod` in the rectified word are doubled. -/
noncomputable def handedBit (rx mod : List (Nat × Nat)) (vf x y : ℝ) (i : Nat) : ℝ :=
  if rx ≠ [] then (if InMessages rx i then x * 2 * vf else y)
  else if InMessages mod i then y * 2 else y

/-- The factor used: while the model is learned, one at the start and growing to the configured one with the number of words. -/
noncomputable def weighted (learning : Bool) (size : Nat) (center slope f : ℝ) : ℝ :=
  if learning then (f - 1) * trust size center slope + 1 else f

/-- The value received in a field, scored against the window of the values seen there, `fitv` giving mean and deviation of a
window and `mb` the bits of the mean. -/
noncomputable def bitSays (O : StatOps Val ℝ) (w : Option Nat) (fitv : List Val → ℝ × ℝ) (hist : String → List Val)
    (mb : Place → List Bool) (s : List (Nat × Nat)) (buf : List Byte) (i : Nat) : Option BitSays :=
  ((fieldPlaces s).find? fun q => decide (q.Has (i / 8))).map fun q =>
    let f := fitv (windowed w (hist q.name))
    let c := FieldModel.classify O f.1 f.2 (unpackScalar q.type (q.bytes buf))
    ⟨c.1, c.2, (mb q).getD (i - 8 * q.start) false⟩

/-- The whole word handed over. `size` is the number of words in the model, `peak` the largest magnitude received. -/
noncomputable def handedWord (c : MavCfg) (size : Nat) (info : Nat → Option BitSays) (peak : ℝ) (obs : List ℝ) : List ℝ :=
  let vf := weighted c.learning size c.center c.slope c.validFactor
  let ivf := weighted c.learning size c.center c.slope c.invalidFactor
  let rect := fun i => rectifiedBit c.validThr c.invalidThr vf ivf peak (obs.getD i 0) (info i)
  let rx := messagesIn (c.infoBytes (hardBits obs))
  let mod := messagesIn (c.infoBytes (hardBits ((List.range obs.length).map rect)))
  (List.range obs.length).map fun i => handedBit rx mod vf (obs.getD i 0) (rect i) i

end NR.Spec

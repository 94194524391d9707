import Verif.Spec.Rectify
import Verif.Model.CombinedDecoder
import Verif.Spec.Decoder
import Mathlib.Analysis.SpecialFunctions.BinaryEntropy
/-
What the unified decoder hands to the LDPC decoder, bit by bit: the field models as in `Spec/Rectify.lean`, but held against the
entropy model.
-/
namespace NR.Spec
open NR

/-- What the entropy model says about a bit: whether it hardly ever changes, and whether it is more likely a one. -/
structure EntBit where
  steady : Prop
  one : Prop

/-- A bit of a field is forced: the field never changed and, while the model is learned, the value received has no probability. -/
def BitSays.Forced (learning : Bool) (b : BitSays) : Prop := (learning = true → b.score ≤ 0) ∧ b.std = 0

open Classical in
/-- A log-likelihood ratio `x` after the models. Bits outside the fields stay. Forced bits get the mean's value with the magnitude
`peak`. Of the others only steady bits change: those with a good score are multiplied by `vf`, and those with a bad score that
disagree with the entropy model by `ivf`, or by `-ivf` with `flip`. -/
noncomputable def unifiedBit (learning flip : Bool) (validThr invalidThr vf ivf peak x : ℝ) (e : Option EntBit) :
    Option BitSays → ℝ
  | none => x
  | some b =>
    if b.Forced learning then (if b.mean then -1 else 1) * (peak * max vf 1)
    else match e with
      | none => x
      | some e =>
        if e.steady then x * (if 1 - validThr < b.score then vf else 1) *
          (if b.score < invalidThr ∧ ¬ (e.one ↔ x < 0) then (if flip then -ivf else ivf) else 1)
        else x

/-- The probability of a one at position `j` in the words `data`, corrected for bit flips. -/
noncomputable def likely (bitFlip : ℝ) (data : List (List Bool)) (j : Nat) : ℝ :=
  min 1 (max 0 ((oneShare data j - bitFlip) / (1 - 2 * bitFlip)))

open Classical in
/-- The entropy model made of the words `data`; it is used once there are more words than `center`. -/
noncomputable def entSays (c : CombCfg) (data : List (List Bool)) (i : Nat) : Option EntBit :=
  if i < c.modelLength ∧ c.mav.center < data.length then
    some ⟨Real.binEntropy (likely c.bitFlip data i) / Real.log 2 < c.threshold, 1 / 2 < likely c.bitFlip data i⟩
  else none

/-- The whole word after the field models. `size` is the number of words in the field models, `peak` the largest magnitude
received. -/
noncomputable def unifiedWord (c : CombCfg) (size : Nat) (ent : Nat → Option EntBit) (info : Nat → Option BitSays) (peak : ℝ)
    (obs : List ℝ) : List ℝ :=
  let vf := weighted c.mav.learning size c.mav.center c.mav.slope c.mav.validFactor
  let ivf := weighted c.mav.learning size c.mav.center c.mav.slope c.mav.invalidFactor
  let rect := fun i => unifiedBit c.mav.learning c.flip c.mav.validThr c.mav.invalidThr vf ivf peak (obs.getD i 0) (ent i) (info i)
  let rx := messagesIn (c.mav.infoBytes (hardBits obs))
  let mod := messagesIn (c.mav.infoBytes (hardBits ((List.range obs.length).map rect)))
  (List.range obs.length).map fun i => handedBit rx mod vf (obs.getD i 0) (rect i) i

/-- The word after the field models of either decoder. -/
noncomputable def modelWord (c : CombCfg) (size : Nat) (data : List (List Bool)) (info : Nat → Option BitSays) (peak : ℝ)
    (obs : List ℝ) : List ℝ :=
  if c.unified then unifiedWord c size (entSays c data) info peak obs else handedWord c.mav size info peak obs

/-- Position `k` of the words `data` hardly ever changes. -/
def Steady (c : CombCfg) (data : List (List Bool)) (k : Nat) : Prop :=
  Real.binEntropy (likely c.bitFlip data k) / Real.log 2 < c.threshold

open Classical in
/-- What the entropy model adds at its position `k`: for a steady position, once there are two words, the log-likelihood ratio
weighted by the number of words and clipped to a multiple of `peak`. Nothing is added if the only steady position is bit 0 of
the word. -/
noncomputable def entAdd (c : CombCfg) (data : List (List Bool)) (peak : ℝ) (k : Nat) : ℝ :=
  if Steady c data k ∧ 1 < data.length ∧ (∃ k' b, c.mav.idx[k']? = some b ∧ b ≠ 0 ∧ Steady c data k') then
    min (c.clipping * peak) (max (-(c.clipping * peak))
      (1 / (1 + Real.exp (-((data.length : ℝ) - c.mav.center) * c.mav.slope)) *
        Real.log ((floatEps + (1 - likely c.bitFlip data k)) / (likely c.bitFlip data k + floatEps))))
  else 0

/-- The word handed to the LDPC decoder: the field models' word, plus the entropy model's ratios at the positions it is told of. -/
noncomputable def combinedWord (c : CombCfg) (size : Nat) (data : List (List Bool)) (info : Nat → Option BitSays) (peak : ℝ)
    (obs : List ℝ) : List ℝ :=
  (List.range obs.length).map fun i => (modelWord c size data info peak obs).getD i 0 +
    if i ∈ c.mav.idx then entAdd c data peak (c.mav.idx.idxOf i) else 0

end NR.Spec

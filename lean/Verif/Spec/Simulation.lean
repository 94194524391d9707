import Verif.Model.Simulation
import Verif.Spec.Analysis
import Verif.Spec.Rectify
/-
Confusion tables as arrays, and what the field models say about a received word.
-/
namespace NR.Spec
open NR

open Classical in
/-- The positions below `n` that satisfy `P`, in order. -/
noncomputable def positions (n : Nat) (P : Nat → Prop) : List Nat := (List.range n).filter fun i => decide (P i)

/-- True positives, false positives, true negatives, false negatives, positives and negatives among the positions below `n`, of
which `pred` are predicted and `act` actually are positive. -/
noncomputable def tableOf (n : Nat) (pred act : Nat → Prop) : List Int :=
  [(positions n fun i => pred i ∧ act i).length, (positions n fun i => pred i ∧ ¬ act i).length,
   (positions n fun i => ¬ pred i ∧ ¬ act i).length, (positions n fun i => ¬ pred i ∧ act i).length,
   (positions n act).length, (positions n fun i => ¬ act i).length]

/-- The bits of a word with the bits at `errors` inverted. -/
def flipAt (w : List Bool) (errors : List Nat) : List Bool := w.mapIdx fun i b => if i ∈ errors then !b else b

/-- Field number `j` has a score and a deviation satisfying `P`. -/
def FieldSays (fields : List (Option (String × ℝ × ℝ))) (P : ℝ → ℝ → Prop) (j : Nat) : Prop :=
  ∃ name x s, fields[j]? = some (some (name, x, s)) ∧ P x s

/-- The score and the deviation of the value received in a field. -/
noncomputable def fieldScore (O : StatOps Val ℝ) (w : Option Nat) (fitv : List Val → ℝ × ℝ) (hist : String → List Val)
    (buf : List Byte) (q : Place) : ℝ × ℝ :=
  FieldModel.classify O (fitv (windowed w (hist q.name))).1 (fitv (windowed w (hist q.name))).2
    (unpackScalar q.type (q.bytes buf))

/-- Field number `j` of the structure received a value with a score and a deviation satisfying `P`. -/
def Scored (score : Place → ℝ × ℝ) (st : List (Nat × Nat)) (P : ℝ → ℝ → Prop) (j : Nat) : Prop :=
  ∃ q, (fieldPlaces st)[j]? = some q ∧ P (score q).1 (score q).2

/-- Bit `i` lies in a field whose value cannot be right. -/
def WrongBit (bit : Nat → Option BitSays) (i : Nat) : Prop := ∃ b, bit i = some b ∧ b.Wrong

/-- Bit `i` lies in such a field, and the mean of the field has another bit than the one received. -/
def FlippedBit (bit : Nat → Option BitSays) (rx : List Bool) (i : Nat) : Prop :=
  ∃ b, bit i = some b ∧ b.Wrong ∧ b.mean ≠ rx.getD i false

/-- Bit `i` lies in such a field, and the mean of the field has another bit than the one sent. -/
def MisledBit (bit : Nat → Option BitSays) (tx : List Bool) (i : Nat) : Prop :=
  ∃ b, bit i = some b ∧ b.Wrong ∧ b.mean ≠ tx.getD i false

/-- What a report has to say about a word `tx` received as `rx` with errors at `errors`, when `score` gives the score and the
deviation of each field as received and `bit` what the models say about each bit. -/
structure ReportOf (thr : ℝ) (st : List (Nat × Nat)) (score : Place → ℝ × ℝ) (bit : Nat → Option BitSays) (tx rx : List Bool)
    (errors : List Nat) (r : WordReport) : Prop where
  received : r.rx = rx
  damaged : ∀ j, j ∈ r.damaged ↔ Damaged st errors j
  nFields : r.classifier.nFields = (fieldPlaces st).length
  nDamaged : r.classifier.nDamaged = (positions (fieldPlaces st).length (Damaged st errors)).length
  goodFields : r.classifier.goodFields = positions (fieldPlaces st).length (Scored score st fun x _ => 1 - thr < x)
  badFields : r.classifier.badFields = positions (fieldPlaces st).length (Scored score st fun x _ => x < thr)
  goodBits : ∀ i < tx.length, r.classifier.goodBits.getD i false = true ↔ ∃ b, bit i = some b ∧ 1 - thr < b.score
  badBits : ∀ i < tx.length, r.classifier.badBits.getD i false = true ↔ ∃ b, bit i = some b ∧ b.score < thr
  goodTable : r.classifier.goodPerformance =
    tableOf (fieldPlaces st).length (Scored score st fun x _ => 1 - thr < x) fun j => ¬ Damaged st errors j
  badTable : r.classifier.badPerformance =
    tableOf (fieldPlaces st).length (Scored score st fun x _ => x < thr) (Damaged st errors)
  forcedFields : r.forcing.forcedFields = positions (fieldPlaces st).length (Scored score st fun x s => x ≤ 0 ∧ s = 0)
  forcedBits : r.forcing.forcedBits = positions tx.length (WrongBit bit)
  correctBits : r.forcing.correctBits = positions tx.length fun i => WrongBit bit i ∧ i ∈ errors
  incorrectBits : r.forcing.incorrectBits = positions tx.length fun i => WrongBit bit i ∧ i ∉ errors
  missedBits : r.forcing.missedBits = positions tx.length fun i => i ∈ errors ∧ ¬ WrongBit bit i
  correctFields : r.forcing.correctFields =
    positions (fieldPlaces st).length fun j => Scored score st (fun x s => x ≤ 0 ∧ s = 0) j ∧ Damaged st errors j
  incorrectFields : r.forcing.incorrectFields =
    positions (fieldPlaces st).length fun j => Scored score st (fun x s => x ≤ 0 ∧ s = 0) j ∧ ¬ Damaged st errors j
  missedFields : r.forcing.missedFields =
    positions (fieldPlaces st).length fun j => Damaged st errors j ∧ ¬ Scored score st (fun x s => x ≤ 0 ∧ s = 0) j
  bitsTable : r.forcing.bitsPerformance = tableOf tx.length (WrongBit bit) (· ∈ errors)
  fieldsTable : r.forcing.fieldsPerformance =
    tableOf (fieldPlaces st).length (Scored score st fun x s => x ≤ 0 ∧ s = 0) (Damaged st errors)
  flippedTable : r.forcing.flippedPerformance = tableOf tx.length (FlippedBit bit rx) (· ∈ errors)
  quality : ∃ share : ℚ, r.forcing.quality =
      [(errors.length : ℚ), ((positions tx.length (WrongBit bit)).length : ℚ),
       ((positions tx.length (FlippedBit bit rx)).length : ℚ),
       ((positions tx.length fun i => FlippedBit bit rx i ∧ i ∈ errors).length : ℚ),
       ((positions tx.length fun i => FlippedBit bit rx i ∧ i ∉ errors).length : ℚ), share] ∧
    share * (positions tx.length (WrongBit bit)).length = (positions tx.length (MisledBit bit tx)).length ∧
    (positions tx.length (WrongBit bit) = [] → share = 0)

end NR.Spec

import Verif.Model.MavDecoder
import Mathlib.Data.List.Dedup
/-
Model of the debug analysis of the MAVLink and combined decoders: `confusion`, `classifier_analysis`, `forcing_analysis`,
decoders/mavlink_decoder.py:12-19, 125-131, 232-273 (the combined decoders have the same three functions:
combined_decoder.py:13-20, 205-246; combined_unified_decoder.py:13-20, 235-276). Error and forced positions are non-negative
integers.
-/
namespace NR

/-- The six numbers of a confusion table in the order of the array. -/
structure Confusion where
  tp : Nat
  fp : Nat
  tn : Int
  fn : Nat
  positive : Nat
  negative : Int
  deriving DecidableEq, Repr

/-- `confusion`, mavlink_decoder.py:12-19 (`np.intersect1d` and `np.setdiff1d` return distinct values). -/
def confusionTable (predicted actual : List Nat) (negative : Int) : Confusion :=
  let fp := (predicted.filter (· ∉ actual)).dedup.length
  { tp := (predicted.filter (· ∈ actual)).dedup.length
    fp
    tn := negative - fp
    fn := (actual.filter (· ∉ predicted)).dedup.length
    positive := actual.length
    negative }

/-- The dictionary of `classifier_analysis`. -/
structure ClassifierReport where
  nFields : Nat
  nDamaged : Nat
  good : Confusion
  bad : Confusion
  deriving DecidableEq, Repr

/-- The body of `classifier_analysis` once the structure is known, mavlink_decoder.py:236-244; `n` is the codeword length. An
empty dictionary is `none`. -/
def classifierReport (n : Nat) (st : List (Nat × Nat)) (good bad errors : List Nat) (nFields : Nat) :
    Except PyErr (Option ClassifierReport) := do
  match ← BufferModel.findDamaged errors st (n / 8) with
  | none => .ok none
  | some [] => .ok none
  | some damaged =>
    let damagedFields := (damaged.map Prod.snd).dedup
    let actualGood := (List.range nFields).filter (· ∉ damagedFields)
    .ok (some {
      nFields
      nDamaged := damagedFields.length
      good := confusionTable good actualGood damaged.length
      bad := confusionTable bad damagedFields (nFields - damaged.length) })

/-- `classifier_analysis`, mavlink_decoder.py:232-244. -/
def classifierAnalysis (n : Nat) (structures : List (Option (List (Nat × Nat)))) (good bad errors : List Nat) (nFields : Nat)
    (label : Int) : Except PyErr (Option ClassifierReport) :=
  match pyPos structures.length label with
  | none => .error .indexError
  | some j => match structures.getD j none with
    | none => .ok none
    | some st => classifierReport n st good bad errors nFields

/-- The dictionary of `forcing_analysis`. -/
structure ForcingReport where
  bits : Confusion
  flipping : Confusion
  nErrors : Nat
  nForced : Nat
  nFlipped : Nat
  flippedErrors : Nat
  flippedCorrect : Nat
  share : ℚ

/-- `forcing_analysis` with the model's values of the forced bits, mavlink_decoder.py:252-273; `rx[forced_bits]` and
`errors_bool[error_idx]` raise an IndexError outside the word. -/
def forcingReport (rx : List Bool) (forced errors : List Nat) (modelBits : List Bool) : Except PyErr ForcingReport :=
  if forced.all (· < rx.length) && errors.all (· < rx.length) then
    let flipped := ((forced.zip modelBits).filter fun x => x.2 != rx.getD x.1 false).map Prod.fst
    let flipping := confusionTable flipped errors (rx.length - errors.length)
    let tx := rx.mapIdx fun i b => b != decide (i ∈ errors)
    .ok { bits := confusionTable forced errors (rx.length - errors.length)
          flipping
          nErrors := errors.length
          nForced := forced.length
          nFlipped := flipped.length
          flippedErrors := flipping.tp
          flippedCorrect := flipping.fp
          share := if forced = [] then 0
            else ((forced.zip modelBits).countP fun x => tx.getD x.1 false != x.2 : ℕ) / (forced.length : ℚ) }
  else .error .indexError

/-- `forcing_analysis`, mavlink_decoder.py:246-273. An unknown structure is `None`, which has no `items` (AttributeError); an
array of floats cannot be an index (IndexError), but the means have been read by then. -/
noncomputable def Mav.forcingAnalysis {σ Λ : Type} (c : MavCfg) (s : Mav σ Λ) (forced : Option (List Nat)) (errors : List Nat)
    (rx : List Bool) (label : Int) : Mav σ Λ × Except PyErr ForcingReport :=
  match pyPos s.structures.length label with
  | none => (s, .error .indexError)
  | some j => match s.structures.getD j none with
    | none => (s, .error .attributeError)
    | some st =>
      match s.model.bitwiseModelMean c.stats (forced.getD []) (rx.length / 8) st with
      | (model, .error e) => ({ s with model }, .error e)
      | (model, .ok bits) => ({ s with model }, match forced with
        | none => .error .indexError
        | some forced => forcingReport rx forced errors bits)

/-- What a call with `debug` on does. -/
structure DebugStep (σ Λ : Type) where
  state : Mav σ Λ
  events : List MavEvent
  result : Except PyErr (MavOut × Option ClassifierReport × Option ForcingReport)

/-- `decode_buffer` with `debug` on, mavlink_decoder.py:83-135: no analysis for a negative label; `n` is the codeword length,
`errors` is `error_idx`. -/
noncomputable def Mav.decodeDebug {σ Λ : Type} (c : MavCfg) (cls : Labeler σ) (ldpc : Ldpc Λ) (n : Nat) (s : Mav σ Λ)
    (ch : List ℝ) (errors : List Nat) : DebugStep σ Λ :=
  let step := s.decode c cls ldpc ch
  match step.result with
  | .error e => ⟨step.state, step.events, .error e⟩
  | .ok out =>
    if out.label < 0 then ⟨step.state, step.events, .ok (out, none, none)⟩
    else match classifierAnalysis n step.state.structures out.goodFields out.badFields errors out.nFields out.label with
      | .error e => ⟨step.state, step.events, .error e⟩
      | .ok cr => match step.state.forcingAnalysis c out.forced errors (hardBits ch) out.label with
        | (s', .error e) => ⟨s', step.events, .error e⟩
        | (s', .ok fr) => ⟨s', step.events, .ok (out, cr, some fr)⟩

end NR

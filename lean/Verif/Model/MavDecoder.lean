import Verif.Model.Decoder
import Verif.Model.BufferModel
import Verif.Model.Segmentation
import Verif.Model.Mavlink
/-
Model of `MavlinkRectifyingDecoder`, decoders/mavlink_decoder.py. Numbers are reals, NaN is `none`; an exception leaves the
state as it is at that point. The debug analysis (lines 125-131, 232-273) is in Verif/Model/Analysis.lean.
-/
namespace NR

/-- Parameters of the decoder, mavlink_decoder.py:30-81. `infoBytes` is `ldpc_decoder.info_bits(...).tobytes()` of the
external package, `stats` what scipy computes. -/
structure MavCfg where
  idx : List Nat
  validThr : ℝ
  invalidThr : ℝ
  validFactor : ℝ
  invalidFactor : ℝ
  center : ℝ
  slope : ℝ
  nClusters : Nat
  cluster : Bool
  learning : Bool
  segIterations : Nat
  infoBytes : List Bool → List Byte
  stats : StatOps Val ℝ

/-- Mutable fields: a structure per cluster (`None` before it is known), the field models, the round-robin index, and the
hidden states of the classifier and the LDPC decoder. -/
structure Mav (σ Λ : Type) where
  structures : List (Option (List (Nat × Nat)))
  model : BufferModel ℝ
  running : Int
  cls : σ
  ldpc : Λ

/-- `__init__`, mavlink_decoder.py:52-71, with the model given or a new one. -/
def Mav.new {σ Λ : Type} (n : Nat) (model : BufferModel ℝ) (cls : σ) (ldpc : Λ) : Mav σ Λ :=
  { structures := List.replicate n none, model, running := -1, cls, ldpc }

/-- `set_buffer_structures`, mavlink_decoder.py:151-159. -/
def Mav.setStructures {σ Λ : Type} (c : MavCfg) (s : Mav σ Λ) (structs : List (Option (List (Nat × Nat)))) :
    Mav σ Λ × Except PyErr Unit :=
  if structs.length ≠ c.nClusters then (s, .error .valueError) else ({ s with structures := structs }, .ok ())

/-- Position of a Python index (negative ones count from the end) in a list of `n` elements. -/
def pyPos (n : Nat) (i : Int) : Option Nat :=
  if 0 ≤ i then (if i < n then some i.toNat else none)
  else if 0 ≤ (n : Int) + i then some ((n : Int) + i).toNat else none

/-- What `model_prediction` returns. `forced` is `none` when the structure is unknown: the code then returns `np.array([])`, an
empty array of floats, which unlike an empty array of integers cannot be used as an index. -/
structure MavPred where
  llr : List ℝ
  goodFields : List Nat
  badFields : List Nat
  nFields : Nat
  forced : Option (List Nat)
  segmented : List Bool

/-- The factor applied while learning, mavlink_decoder.py:181-190. -/
noncomputable def MavCfg.factor (c : MavCfg) (size : Nat) (f : ℝ) : ℝ :=
  if c.learning then (f - 1) * modelConfidence size c.center c.slope + 1 else f

open Classical in
/-- `valid_bits_p > t`; comparisons with NaN are false. -/
noncomputable def above (t : ℝ) (p : List (BufferModel.Score ℝ)) : List Bool :=
  p.map fun (v : BufferModel.Score ℝ) => match v with
    | some (x : ℝ) => decide (t < x)
    | none => false

open Classical in
/-- `valid_bits_p < t`. -/
noncomputable def below (t : ℝ) (p : List (BufferModel.Score ℝ)) : List Bool :=
  p.map fun (v : BufferModel.Score ℝ) => match v with
    | some (x : ℝ) => decide (x < t)
    | none => false

open Classical in
/-- The indices of the fields whose score satisfies a condition, mavlink_decoder.py:178-179: a TypeError when a field has no
model (`None[1]`). -/
noncomputable def fieldsWhere (cond : ℝ → Prop) (fields : List (Option (String × ℝ × ℝ))) : Except PyErr (List Nat) :=
  if fields.any Option.isNone then .error .typeError
  else .ok ((List.range fields.length).filter fun i =>
    match fields.getD i none with
    | some (_, x, _) => decide (cond x)
    | none => false)

/-- `a[:len(mask)][mask] *= f`; the mask is not longer than the array. -/
noncomputable def scaleMask (a : List ℝ) (mask : List Bool) (f : ℝ) : List ℝ :=
  a.mapIdx fun (i : Nat) (x : ℝ) => if mask.getD i false then x * f else x

open Classical in
/-- `np.where((valid_bits_p <= 0) & (bitwise_std == 0))[0]`, mavlink_decoder.py:206. -/
noncomputable def forcedBits (p std : List (BufferModel.Score ℝ)) : List Nat :=
  (List.range p.length).filter fun i =>
    match p.getD i none, std.getD i none with
    | some (x : ℝ), some (y : ℝ) => decide (x ≤ 0) && decide (y = 0)
    | _, _ => false

/-- `modified_llr[forced_bits] = (-1) ** model_bits * v`, mavlink_decoder.py:210-211. -/
noncomputable def forceBits (a : List ℝ) (forced : List Nat) (bits : List Bool) (v : ℝ) : List ℝ :=
  (forced.zip bits).foldl (fun (a : List ℝ) (x : Nat × Bool) => a.set x.1 (if x.2 then -v else v)) a

/-- The positions of valid bits: `np.where(valid_info_bits == 1)[0]`. -/
def validIdx (validity : List Int) : List Nat := (List.range validity.length).filter fun i => validity.getD i 0 == 1

/-- Assignment at valid positions: an IndexError when one is outside. -/
noncomputable def setValid (a : List ℝ) (validity : List Int) (g : Nat → ℝ) : Except PyErr (List ℝ) :=
  if (validIdx validity).all (· < a.length) then
    .ok (a.mapIdx fun (i : Nat) (x : ℝ) => if i ∈ validIdx validity then g i else x)
  else .error .indexError

/-- `np.pad(valid, (0, n - len(valid))).astype(bool)`: a ValueError when longer than `n`. -/
def padValid (validity : List Int) (n : Nat) : Except PyErr (List Bool) :=
  if n < validity.length then .error .valueError
  else .ok (validity.map (fun v => decide (v ≠ 0)) ++ List.replicate (n - validity.length) false)

/-- The last part of `model_prediction`, mavlink_decoder.py:213-230: bits of messages found in the observed word or, if there
are none, in the modified word are strengthened. -/
noncomputable def MavCfg.resegment (c : MavCfg) (obs llr : List ℝ) (vf : ℝ) : Except PyErr (List ℝ × List Bool) := do
  let seg ← segmentBuffer decode (c.infoBytes (hardBits obs))
  if seg.struct ≠ [] then
    let llr ← setValid llr seg.validity fun i => obs.getD i 0 * 2 * vf
    let v ← padValid seg.validity llr.length
    .ok (llr, v)
  else
    let seg ← segmentBuffer decode (c.infoBytes (hardBits llr))
    let llr ← (if seg.struct ≠ [] then setValid llr seg.validity fun i => llr.getD i 0 * 2 else .ok llr)
    let v ← padValid seg.validity llr.length
    .ok (llr, v)

/-- The part of `model_prediction` after the scaling, mavlink_decoder.py:204-230. -/
noncomputable def MavCfg.force (c : MavCfg) (model : BufferModel ℝ) (obs llr : List ℝ) (st : List (Nat × Nat))
    (forced : List Nat) (vf : ℝ) : BufferModel ℝ × Except PyErr (List ℝ) :=
  if forced = [] then (model, .ok llr)
  else match model.bitwiseModelMean c.stats forced (obs.length / 8) st with
    | (model, .error e) => (model, .error e)
    | (model, .ok bits) => match pyMax (obs.map fun (x : ℝ) => |x|) with
      | .error e => (model, .error e)
      | .ok m => (model, .ok (forceBits llr forced bits (m * max vf 1)))

/-- `model_prediction`, mavlink_decoder.py:161-230. -/
noncomputable def Mav.predict {σ Λ : Type} (c : MavCfg) (s : Mav σ Λ) (obs : List ℝ) (label : Int) :
    Mav σ Λ × Except PyErr MavPred :=
  match pyPos s.structures.length label with
  | none => (s, .error .indexError)
  | some j => match s.structures.getD j none with
    | none => (s, .ok ⟨obs, [], [], 0, none, []⟩)
    | some st => match s.model.predict c.stats (.bits (hardBits obs)) st with
      | (model, .error e) => ({ s with model }, .error e)
      | (model, .ok p) =>
        match fieldsWhere (fun x => 1 - c.validThr < x) p.fields, fieldsWhere (fun x => x < c.invalidThr) p.fields with
        | .ok good, .ok bad =>
          let vf := c.factor model.modelSize c.validFactor
          let ivf := c.factor model.modelSize c.invalidFactor
          let llr := scaleMask (scaleMask obs (above (1 - c.validThr) p.bitProb) vf) (below c.invalidThr p.bitProb) ivf
          let forced := forcedBits p.bitProb p.bitStd
          match c.force model obs llr st forced vf with
          | (model, .error e) => ({ s with model }, .error e)
          | (model, .ok llr) => match c.resegment obs llr vf with
            | .error e => ({ s with model }, .error e)
            | .ok (llr, v) => ({ s with model }, .ok ⟨llr, good, bad, p.fields.length, some forced, v⟩)
        | _, _ => ({ s with model }, .error .typeError)

/-- One run of the LDPC decoder within a call: the position of the cluster, what was handed to the LDPC decoder, what it
returned, and the received bits. -/
structure MavEvent where
  pos : Nat
  handed : List ℝ
  out : LdpcOut
  rx : List Bool

/-- The learning of `decode_and_update_model`, mavlink_decoder.py:140-148. -/
noncomputable def Mav.learn {σ Λ : Type} (c : MavCfg) (s : Mav σ Λ) (j : Nat) (o : LdpcOut) (rx : List Bool) :
    Mav σ Λ × Except PyErr Unit :=
  if !c.learning then (s, .ok ())
  else if o.success then
    match s.structures.getD j none with
    | some st =>
      let (model, r) := s.model.addBuffer c.stats (.bits o.estimate) st
      ({ s with model }, r)
    | none => match segmentBuffer decode (c.infoBytes o.estimate) with
      | .error e => (s, .error e)
      | .ok seg =>
        let (model, r) := s.model.addBuffer c.stats (.bits o.estimate) seg.struct
        ({ s with model, structures := s.structures.set j (some seg.struct) }, r)
  else match s.structures.getD j none with
    | some st =>
      let (model, r) := s.model.addBuffer c.stats (.bits rx) st
      ({ s with model }, r)
    | none => (s, .ok ())

/-- `decode_and_update_model`, mavlink_decoder.py:137-149. A label outside the list of structures raises only when the
structures are used. -/
noncomputable def Mav.decodeUpdate {σ Λ : Type} (c : MavCfg) (ldpc : Ldpc Λ) (s : Mav σ Λ) (inp : List ℝ) (label : Int)
    (rx : List Bool) : Mav σ Λ × LdpcOut × Except PyErr Unit :=
  let (l', o) := ldpc s.ldpc (.llr inp)
  let s := { s with ldpc := l' }
  match pyPos s.structures.length label with
  | none => (s, o, if c.learning then .error .indexError else .ok ())
  | some j =>
    let (s, r) := s.learn c j o rx
    (s, o, r)

/-- What a call returns (without syndrome, node validity and the debug analysis), and the two local variables `n_fields` and
`forced_bits` the debug analysis uses. -/
structure MavOut where
  estimate : List Bool
  llr : List ℝ
  success : Bool
  iterations : Nat
  label : Int
  segmented : List Bool
  goodFields : List Nat
  badFields : List Nat
  nFields : Nat
  forced : Option (List Nat)

/-- What a call does: the new state, the runs of the LDPC decoder, and its result. -/
structure MavStep (σ Λ : Type) where
  state : Mav σ Λ
  events : List MavEvent
  result : Except PyErr MavOut

/-- The event of a run of the LDPC decoder. -/
def eventOf (n : Nat) (label : Int) (inp : List ℝ) (o : LdpcOut) (rx : List Bool) : List MavEvent :=
  match pyPos n label with
  | none => []
  | some j => [⟨j, inp, o, rx⟩]

/-- The loop of `decode_buffer`, mavlink_decoder.py:100-124: `left` iterations remain; `ch` is the channel word, `inp` the
current input, `total` the LDPC iterations so far, `last` the variables assigned in the previous iteration. -/
noncomputable def Mav.loop {σ Λ : Type} (c : MavCfg) (cls : Labeler σ) (ldpc : Ldpc Λ) (ch : List ℝ) :
    Nat → Mav σ Λ → List MavEvent → List ℝ → Nat → Option MavOut → MavStep σ Λ
  | 0, s, ev, _, _, none => ⟨s, ev, .error .unboundLocalError⟩
  | 0, s, ev, _, _, some out => ⟨s, ev, .ok out⟩
  | left + 1, s, ev, inp, total, _ =>
    match (if 1 < c.nClusters ∧ c.cluster = true then takeIdx (hardBits ch) c.idx else .ok []) with
    | .error e => ⟨s, ev, .error e⟩
    | .ok bits =>
      let (cs, running, lab) := pickLabel cls c.nClusters c.cluster s.cls s.running bits
      let s := { s with cls := cs, running := running }
      match lab with
      | .error e => ⟨s, ev, .error e⟩
      | .ok label =>
        if label < 0 then
          let (s', o, r) := s.decodeUpdate c ldpc ch label (hardBits ch)
          ⟨s', ev ++ eventOf s.structures.length label ch o (hardBits ch),
            r.map fun _ => ⟨o.estimate, o.llr, o.success, o.iterations, label, [], [], [], 0, none⟩⟩
        else match s.predict c inp label with
          | (s, .error e) => ⟨s, ev, .error e⟩
          | (s, .ok p) =>
            let (s', o, r) := s.decodeUpdate c ldpc p.llr label (hardBits ch)
            let ev := ev ++ eventOf s.structures.length label p.llr o (hardBits ch)
            match r with
            | .error e => ⟨s', ev, .error e⟩
            | .ok _ =>
              let out : MavOut := ⟨o.estimate, o.llr, o.success, total + o.iterations, label, p.segmented, p.goodFields,
                p.badFields, p.nFields, p.forced⟩
              if o.success then ⟨s', ev, .ok out⟩
              else Mav.loop c cls ldpc ch left s' ev o.llr (total + o.iterations) (some out)

/-- `decode_buffer`, mavlink_decoder.py:83-135, with `debug` off. -/
noncomputable def Mav.decode {σ Λ : Type} (c : MavCfg) (cls : Labeler σ) (ldpc : Ldpc Λ) (s : Mav σ Λ) (ch : List ℝ) :
    MavStep σ Λ :=
  Mav.loop c cls ldpc ch c.segIterations s [] ch 0 none

/-- A sequence of calls: the final state and the steps. -/
noncomputable def Mav.run {σ Λ : Type} (c : MavCfg) (cls : Labeler σ) (ldpc : Ldpc Λ) :
    Mav σ Λ → List (List ℝ) → Mav σ Λ × List (MavStep σ Λ)
  | s, [] => (s, [])
  | s, ch :: rest =>
    let st := s.decode c cls ldpc ch
    let (s', steps) := Mav.run c cls ldpc st.state rest
    (s', st :: steps)

end NR

import Verif.Model.MavDecoder
import Verif.Model.EntropyDecoder
/-
Model of `CombinedDecoder` (decoders/combined_decoder.py) and `CombinedUnifiedDecoder`
(decoders/combined_unified_decoder.py), which differ in the lines marked with `unified` below. Numbers are reals, NaN is
`none`; an exception leaves the state as it is at that point. `debug` is off. Lines are those of combined_decoder.py unless
another file is named.
-/
namespace NR

/-- Parameters of the decoders, combined_decoder.py:28-72 (combined_unified_decoder.py:37-82): those of the MAVLink part,
those of the entropy part, and which of the two classes. `mav.segIterations` is not used. -/
structure CombCfg where
  mav : MavCfg
  modelLength : Nat
  threshold : ℝ
  clipping : ℝ
  bitFlip : ℝ
  window : Option Nat
  unified : Bool
  flip : Bool

/-- The parameters of the entropy part, which always trains. -/
def CombCfg.ced (c : CombCfg) : CedCfg :=
  { kind := .logSpa, modelLength := c.modelLength, threshold := c.threshold, idx := c.mav.idx, clipping := c.clipping,
    train := true, center := c.mav.center, slope := c.mav.slope, bitFlip := c.bitFlip, window := c.window,
    nClusters := c.mav.nClusters, cluster := c.mav.cluster, method := 0, meanDegree := 0 }

/-- Mutable fields: the MAVLink part with the round-robin index and the hidden states, and the entropy models. -/
structure Comb (σ Λ : Type) where
  mav : Mav σ Λ
  ent : Ced Unit Unit

/-- `__init__`, combined_decoder.py:28-72. -/
def Comb.new {σ Λ : Type} (n : Nat) (model : BufferModel ℝ) (cls : σ) (ldpc : Λ) : Comb σ Λ :=
  { mav := Mav.new n model cls ldpc, ent := Ced.new n () () }

/-- `set_buffer_structures`, combined_decoder.py:124-132 and combined_unified_decoder.py:134-142. -/
def Comb.setStructures {σ Λ : Type} (c : CombCfg) (s : Comb σ Λ) (structs : List (Option (List (Nat × Nat)))) :
    Comb σ Λ × Except PyErr Unit :=
  let (mav, r) := s.mav.setStructures c.mav structs
  ({ s with mav }, r)

/-- `entropy_model_prediction`, combined_decoder.py:74-96 and combined_unified_decoder.py:84-106: `None`, or the model's ratios and where they go. Note `.any()` on
the indices: index 0 alone counts as none. -/
noncomputable def Comb.entropyPrediction {σ Λ : Type} (c : CombCfg) (s : Comb σ Λ) (label : Nat) :
    Except PyErr (Option (List ℝ × List Nat)) :=
  open Classical in
  match s.ent.ents[label]?, s.ent.dists[label]?, s.ent.datas[label]? with
  | some ents, some dists, some data => do
    let structural ← maskIdx c.mav.idx (structuralMask c.threshold ents)
    if structural.all (· == 0) then .ok none
    else
      let conf := modelConfidence (if data.flatten.length = 0 then 0 else data.length) c.mav.center c.mav.slope
      if 0 < conf then do
        let v ← maskIdx (dists.map fun (p : ℝ × ℝ) => conf * modelRatio p) (structuralMask c.threshold ents)
        .ok (some (v, structural))
      else .ok none
  | _, _, _ => .error .indexError

/-- The shape of the result of an elementwise operation on one-dimensional arrays: equal lengths, or one of length 1 which
is stretched. -/
def broadcast {α β γ : Type} (f : α → β → γ) (a : List α) (b : List β) : Except PyErr (List γ) :=
  if a.length = b.length then .ok (List.zipWith f a b)
  else match a, b with
    | [x], b => .ok (b.map fun y => f x y)
    | a, [y] => .ok (a.map fun x => f x y)
    | _, _ => .error .valueError

/-- `a[:len(mask)][mask] *= f` where the mask may be longer than the array: then an IndexError. -/
noncomputable def scaleMaskChecked (a : List ℝ) (mask : List Bool) (f : ℝ) : Except PyErr (List ℝ) :=
  if a.length < mask.length then .error .indexError else .ok (scaleMask a mask f)

open Classical in
/-- `np.around(distribution[:, 1]).astype(bool)` for probabilities: rounding goes to even, 0.5 to 0. An empty array has no
second axis. -/
noncomputable def noiseless (dist : List (ℝ × ℝ)) : Except PyErr (List Bool) :=
  if dist = [] then .error .indexError else .ok (dist.map fun (p : ℝ × ℝ) => decide (1 / 2 < p.2))

/-- The rectification of the unified decoder, combined_unified_decoder.py:185-199: only bits of low entropy are scaled, and
bad bits only where they disagree with the entropy model. -/
noncomputable def CombCfg.rectifyUnified (c : CombCfg) (ent : Ced Unit Unit) (obs : List ℝ) (label : Nat)
    (p : List (BufferModel.Score ℝ)) (vf ivf : ℝ) : Except PyErr (List ℝ) :=
  open Classical in
  match ent.ents[label]?, ent.dists[label]?, ent.datas[label]? with
  | some ents, some dist, some data =>
    let size := if data.flatten.length = 0 then 0 else data.length
    if c.mav.center < (size : ℝ) then do
      let good ← broadcast (· && ·) ((above (1 - c.mav.validThr) p).take c.modelLength) (structuralMask c.threshold ents)
      let llr ← scaleMaskChecked obs good vf
      let bad ← broadcast (· && ·) ((below c.mav.invalidThr p).take c.modelLength) (structuralMask c.threshold ents)
      let est ← noiseless dist
      let differs ← broadcast Bool.xor est ((hardBits obs).take c.modelLength)
      let bad ← broadcast (· && ·) differs bad
      scaleMaskChecked llr bad (ivf * if c.flip then -1 else 1)
    else .ok obs
  | _, _, _ => .error .indexError

open Classical in
/-- The bits that are forced, combined_decoder.py:179 and combined_unified_decoder.py:206-209. -/
noncomputable def CombCfg.forcedBits (c : CombCfg) (p std : List (BufferModel.Score ℝ)) : List Nat :=
  if c.unified && !c.mav.learning then
    (List.range std.length).filter fun i =>
      match std.getD i none with
      | some (y : ℝ) => decide (y = 0)
      | none => false
  else NR.forcedBits p std

/-- The rectification, combined_decoder.py:174-175 and combined_unified_decoder.py:185-199. -/
noncomputable def CombCfg.rectify (c : CombCfg) (ent : Ced Unit Unit) (obs : List ℝ) (label : Nat)
    (p : List (BufferModel.Score ℝ)) (vf ivf : ℝ) : Except PyErr (List ℝ) :=
  if c.unified then c.rectifyUnified ent obs label p vf ivf
  else .ok (scaleMask (scaleMask obs (above (1 - c.mav.validThr) p) vf) (below c.mav.invalidThr p) ivf)

/-- `mavlink_model_prediction`, combined_decoder.py:134-203 and combined_unified_decoder.py:144-233, for a label that is not
negative: the modified word. The indices of fields are only used by the debug analyses, but computing them can raise. -/
noncomputable def Comb.mavlinkPrediction {σ Λ : Type} (c : CombCfg) (s : Comb σ Λ) (obs : List ℝ) (label : Nat) :
    Comb σ Λ × Except PyErr (List ℝ) :=
  match s.mav.structures[label]? with
  | none => (s, .error .indexError)
  | some none => (s, .ok obs)
  | some (some st) => match s.mav.model.predict c.mav.stats (.bits (hardBits obs)) st with
    | (model, .error e) => ({ s with mav := { s.mav with model } }, .error e)
    | (model, .ok p) =>
      let s := { s with mav := { s.mav with model } }
      match fieldsWhere (fun x => 1 - c.mav.validThr < x) p.fields, fieldsWhere (fun x => x < c.mav.invalidThr) p.fields with
      | .ok _, .ok _ =>
        let vf := c.mav.factor model.modelSize c.mav.validFactor
        let ivf := c.mav.factor model.modelSize c.mav.invalidFactor
        match c.rectify s.ent obs label p.bitProb vf ivf with
        | .error e => (s, .error e)
        | .ok llr => match c.mav.force model obs llr st (c.forcedBits p.bitProb p.bitStd) vf with
          | (model, .error e) => ({ s with mav := { s.mav with model } }, .error e)
          | (model, .ok llr) => match c.mav.resegment obs llr vf with
            | .error e => ({ s with mav := { s.mav with model } }, .error e)
            | .ok (llr, _) => ({ s with mav := { s.mav with model } }, .ok llr)
      | _, _ => (s, .error .typeError)

/-- Lines 277-281: the entropy model's ratios, clipped, are added to the word. -/
noncomputable def Comb.addEntropy {σ Λ : Type} (c : CombCfg) (s : Comb σ Λ) (ch inp : List ℝ) (label : Nat) :
    Except PyErr (List ℝ) := do
  match ← s.entropyPrediction c label with
  | none => .ok inp
  | some (v, structural) =>
    let m ← maxAbs ch
    let clip := c.clipping * m
    if structural.all (· < inp.length) then .ok (addAt inp structural (v.map (npClip (-clip) clip)))
    else .error .indexError

/-- The bits the entropy model learns: combined_decoder.py:297-300 takes the whole word, combined_unified_decoder.py:327-330
its first `model_length` bits. -/
def CombCfg.learnedBits (c : CombCfg) (word : List Bool) : List Bool := if c.unified then word.take c.modelLength else word

/-- What a call returns. -/
structure CombOut where
  estimate : List Bool
  llr : List ℝ
  success : Bool
  iterations : Nat
  label : Int

/-- What a call does: the new state, what the LDPC decoder was given, if it was run, its run for a cluster, what
`update_entropy_model` was called with, and the result. -/
structure CombStep (σ Λ : Type) where
  state : Comb σ Λ
  handed : Option (List ℝ)
  events : List MavEvent
  learned : Option (Nat × List Bool)
  result : Except PyErr CombOut

/-- `decode_and_update_model` for a label that is not negative, combined_decoder.py:285-301; `update_entropy_model`
(combined_decoder.py:98-122, combined_unified_decoder.py:108-132) is the update of the entropy decoder. -/
noncomputable def Comb.decodeUpdate {σ Λ : Type} (c : CombCfg) (ldpc : Ldpc Λ) (s : Comb σ Λ) (inp : List ℝ) (label : Nat)
    (rx : List Bool) : CombStep σ Λ :=
  let (mav, o, r) := s.mav.decodeUpdate c.mav ldpc inp label rx
  let events := eventOf s.mav.structures.length label inp o rx
  match r with
  | .error e => ⟨{ s with mav }, some inp, events, none, .error e⟩
  | .ok _ =>
    let bits := c.learnedBits (if o.success then o.estimate else rx)
    let (ent, r) := s.ent.update c.ced bits label
    ⟨{ s with mav, ent }, some inp, events, some (label, bits),
      r.map fun _ => ⟨o.estimate, o.llr, o.success, o.iterations, label⟩⟩

/-- `decode_buffer`, combined_decoder.py:248-283 and combined_unified_decoder.py:278-313. -/
noncomputable def Comb.decode {σ Λ : Type} (c : CombCfg) (cls : Labeler σ) (ldpc : Ldpc Λ) (s : Comb σ Λ) (ch : List ℝ) :
    CombStep σ Λ :=
  match (if 1 < c.mav.nClusters ∧ c.mav.cluster = true then takeIdx (hardBits ch) c.mav.idx else .ok []) with
  | .error e => ⟨s, none, [], none, .error e⟩
  | .ok bits =>
    let (cs, running, lab) := pickLabel cls c.mav.nClusters c.mav.cluster s.mav.cls s.mav.running bits
    let s := { s with mav := { s.mav with cls := cs, running := running } }
    match lab with
    | .error e => ⟨s, none, [], none, .error e⟩
    | .ok label =>
      if label < 0 then
        let (l', o) := ldpc s.mav.ldpc (.llr ch)
        ⟨{ s with mav := { s.mav with ldpc := l' } }, some ch, [], none,
          .ok ⟨o.estimate, o.llr, o.success, o.iterations, label⟩⟩
      else match s.mavlinkPrediction c ch label.toNat with
        | (s, .error e) => ⟨s, none, [], none, .error e⟩
        | (s, .ok inp) => match s.addEntropy c ch inp label.toNat with
          | .error e => ⟨s, none, [], none, .error e⟩
          | .ok inp => s.decodeUpdate c ldpc inp label.toNat (hardBits ch)

/-- A sequence of calls: the final state and the steps. -/
noncomputable def Comb.run {σ Λ : Type} (c : CombCfg) (cls : Labeler σ) (ldpc : Ldpc Λ) :
    Comb σ Λ → List (List ℝ) → Comb σ Λ × List (CombStep σ Λ)
  | s, [] => (s, [])
  | s, ch :: rest =>
    let st := s.decode c cls ldpc ch
    let (s', steps) := Comb.run c cls ldpc st.state rest
    (s', st :: steps)

end NR

import Verif.Model.Decoder
/-
Model of decoders/classifiying_decoder.py. Numbers are reals; an exception leaves the state as it is at that point.
-/
namespace NR

/-- Parameters of `ClassifyingEntropyDecoder`, classifiying_decoder.py:12-57. `meanDegree` is the mean row sum of the
parity check matrix. -/
structure CedCfg where
  kind : LdpcKind
  modelLength : Nat
  threshold : ℝ
  idx : List Nat
  clipping : ℝ
  train : Bool
  center : ℝ
  slope : ℝ
  bitFlip : ℝ
  window : Option Nat
  nClusters : Nat
  cluster : Bool
  method : Int
  meanDegree : ℝ

/-- Mutable fields: distributions, entropies and data per cluster and the round-robin index, and the hidden states of the
classifier and the LDPC decoder. -/
structure Ced (σ Λ : Type) where
  dists : List (List (ℝ × ℝ))
  ents : List (List ℝ)
  datas : List (List (List Bool))
  running : Int
  cls : σ
  ldpc : Λ

/-- `__init__` without a data model, classifiying_decoder.py:38-55. -/
def Ced.new {σ Λ : Type} (n : Nat) (cls : σ) (ldpc : Λ) : Ced σ Λ :=
  { dists := List.replicate n [], ents := List.replicate n [], datas := List.replicate n [], running := -1, cls, ldpc }

/-- `__init__` with a data model, classifiying_decoder.py:42-45. -/
noncomputable def Ced.newWith {σ Λ : Type} (n modelLength : Nat) (model : List (ℝ × ℝ)) (cls : σ) (ldpc : Λ) : Ced σ Λ :=
  { dists := List.replicate n (model.take modelLength)
    ents := List.replicate n ((model.take modelLength).map fun (p : ℝ × ℝ) => scipyEntropy [p.1, p.2] 2)
    datas := List.replicate n [], running := -1, cls, ldpc }

/-- What a call returns (without syndrome and node validity). -/
structure CedOut where
  estimate : List Bool
  llr : List ℝ
  success : Bool
  iterations : Nat
  dist : List (ℝ × ℝ)
  structural : List Nat
  label : Int

/-- The channel-corrected probability of a one, classifiying_decoder.py:159. -/
noncomputable def corrected (bitFlip v : ℝ) : ℝ := npClip 0 1 ((v - bitFlip) / (1 - 2 * bitFlip))

/-- `update_model`, classifiying_decoder.py:138-165. -/
noncomputable def Ced.update {σ Λ : Type} (c : CedCfg) (s : Ced σ Λ) (bits : List Bool) (label : Nat) :
    Ced σ Λ × Except PyErr Unit :=
  open Classical in
  if !c.train then (s, .ok ())
  else if bits.length ≠ c.modelLength then (s, .error .incorrectBufferLength)
  else match s.datas[label]? with
    | none => (s, .error .indexError)
    | some old =>
      let data := growData c.window old bits
      let s := { s with datas := s.datas.set label data }
      match probOf c.modelLength data with
      | .error e => (s, .error e)
      | .ok dist => match column1 dist with
        | .error e => (s, .error e)
        | .ok v =>
          let p1 := v.map fun (q : ℚ) => corrected c.bitFlip q
          let s := { s with dists := s.dists.set label (p1.map fun (p : ℝ) => (1 - p, p)) }
          if ∃ p ∈ p1, p > 1 ∨ p < 0 then (s, .error .runtimeError)
          else ({ s with ents := s.ents.set label (p1.map fun (p : ℝ) => scipyEntropy [1 - p, p] 2) }, .ok ())

/-- `self.models_entropy[cluster_id] < self.entropy_threshold`. -/
noncomputable def structuralMask (threshold : ℝ) (ents : List ℝ) : List Bool :=
  open Classical in ents.map fun (h : ℝ) => decide (h < threshold)

/-- The model's log-likelihood ratio of one bit, classifiying_decoder.py:188-191. -/
noncomputable def modelRatio (p : ℝ × ℝ) : ℝ := Real.log ((floatEps + p.1) / (p.2 + floatEps))

/-- `model_prediction`, classifiying_decoder.py:167-193. Note `.any()` on the indices: index 0 alone counts as none. -/
noncomputable def Ced.predict {σ Λ : Type} (c : CedCfg) (s : Ced σ Λ) (n label : Nat) : Except PyErr (List ℝ) :=
  open Classical in
  match s.ents[label]?, s.dists[label]?, s.datas[label]? with
  | some ents, some dists, some data => do
    let structural ← maskIdx c.idx (structuralMask c.threshold ents)
    if structural.all (· == 0) then .ok (List.replicate n 0)
    else
      let conf := if c.train then modelConfidence (if data.flatten.length = 0 then 0 else data.length) c.center c.slope
        else 1
      if 0 < conf then do
        let v ← maskIdx (dists.map fun (p : ℝ × ℝ) => conf * modelRatio p) (structuralMask c.threshold ents)
        if structural.all (· < n) then .ok (addAt (List.replicate n 0) structural v) else .error .indexError
      else .ok (List.replicate n 0)
  | _, _, _ => .error .indexError

/-- `max(np.abs(x))`. -/
noncomputable def maxAbs (x : List ℝ) : Except PyErr ℝ := pyMax (x.map fun (v : ℝ) => |v|)

/-- Scaling of a vector, classifiying_decoder.py:207, 221, 223. -/
noncomputable def scale (k : ℝ) (x : List ℝ) : List ℝ := x.map fun (v : ℝ) => v * k

open Classical in
/-- Lines 203-207 (method 0): the model is scaled down to the channel's peak if larger, added, and the sum is scaled to
the channel's peak. Simplification: a division by a zero peak gives 0 here. -/
noncomputable def mixSamples (ch mod : List ℝ) (maxS maxM : ℝ) : Except PyErr (List ℝ) := do
  let sum := if maxM > maxS then List.zipWith (fun (a b : ℝ) => a + b * maxS / maxM) ch mod
    else List.zipWith (fun (a b : ℝ) => a + b) ch mod
  let peak ← maxAbs sum
  .ok (scale (maxS / peak) sum)

open Classical in
/-- Lines 219-223 (methods 1 and 2). -/
noncomputable def mixPriors (ch mod : List ℝ) (maxS coeff : ℝ) : Except PyErr (List ℝ) := do
  let pr := List.zipWith (fun (a b : ℝ) => -(SignType.sign (a * b) : ℝ) * |b|) ch mod
  let m1 ← maxAbs pr
  let pr := if m1 > 0 ∧ m1 > maxS then scale (maxS / m1) pr else pr
  let m2 ← maxAbs pr
  .ok (if m2 > 0 ∧ m2 > coeff then scale (coeff / m2) pr else pr)

open Classical in
/-- `_sample_and_priors`, classifiying_decoder.py:195-233: samples (as numbers), whether they are integers, and
priors. -/
noncomputable def Ced.samplePriors {σ Λ : Type} (c : CedCfg) (s : Ced σ Λ) (ch mod : List ℝ) :
    Except PyErr (List ℝ × Bool × List ℝ) := do
  let maxS ← maxAbs ch
  let zeros := List.replicate ch.length (0 : ℝ)
  let maxM ← maxAbs mod
  if maxM > 0 then
    if c.method = 0 then
      let sm ← mixSamples ch mod maxS maxM
      .ok (sm, false, zeros)
    else if c.method = 1 then
      let pr ← mixPriors ch mod maxS 1
      .ok (ch, false, pr)
    else if c.method = 2 then
      let rms := √((ch.map fun (x : ℝ) => x ^ 2).sum / ch.length)
      let pr ← mixPriors ch mod maxS (rms / c.meanDegree)
      .ok (ch, false, pr)
    else if c.method = 3 then
      let data := s.datas.getD 0 []
      let size := if data.flatten.length = 0 then 0 else data.length
      let bits := (hardBits ch).map fun (b : Bool) => if b then (1 : ℝ) else 0
      match c.window with
      | none => .error .typeError
      | some w =>
        if w ≤ size then
          let structural ← maskIdx c.idx (structuralMask c.threshold (s.ents.getD 0 []))
          if structural.all (· == 0) then .ok (bits, true, zeros)
          else if structural.all (· < ch.length) then
            .ok (structural.foldl (fun (a : List ℝ) (i : Nat) =>
              a.set i (if (hardBits mod).getD i false then 1 else 0)) bits, true, zeros)
          else .error .indexError
        else .ok (bits, true, zeros)
    else .ok (ch, false, zeros)
  else .ok (ch, false, zeros)

/-- What is handed to the LDPC decoder when a model is used, classifiying_decoder.py:108-128. -/
noncomputable def Ced.prepare {σ Λ : Type} (c : CedCfg) (s : Ced σ Λ) (ch : List ℝ) (label : Nat) :
    Except PyErr LdpcIn := do
  let mod ← s.predict c ch.length label
  match c.kind with
  | .logSpa => do
    let m ← pyMax ch
    let clip := c.clipping * m
    .ok (.llr (List.zipWith (fun (a b : ℝ) => npClip (-clip) clip (a + b)) ch mod))
  | .wbf => do
    let (sm, _, pr) ← s.samplePriors c ch mod
    .ok (.samples sm (some pr))
  | .galBf => do
    let (sm, ints, _) ← s.samplePriors c ch mod
    .ok (.bits (if ints then sm.map fun (x : ℝ) => open Classical in decide (x ≠ 0) else hardBits sm))

/-- What is handed to the LDPC decoder during training of the classifier, classifiying_decoder.py:82-96. -/
noncomputable def plainInput (k : LdpcKind) (ch : List ℝ) : LdpcIn :=
  match k with
  | .logSpa => .llr ch
  | .wbf => .samples ch none
  | .galBf => .bits (hardBits ch)

/-- The soft output, empty for the hard decoders, classifiying_decoder.py:89, 95, 119, 128. -/
def softOut (k : LdpcKind) (o : LdpcOut) : List ℝ := if k = .logSpa then o.llr else []

/-- What a call does: the new state, what it handed to the LDPC decoder, what it passed to `update_model`, and its
result. -/
structure CedStep (σ Λ : Type) where
  state : Ced σ Λ
  handed : Option LdpcIn
  learned : Option (Nat × List Bool)
  result : Except PyErr CedOut

/-- Lines 130-136 of `decode_buffer`: learning from the estimate or from the channel, and the return value. -/
noncomputable def Ced.finish {σ Λ : Type} (c : CedCfg) (s : Ced σ Λ) (chBits : List Bool) (label : Nat)
    (inp : LdpcIn) (o : LdpcOut) : CedStep σ Λ :=
  match takeIdx o.estimate c.idx with
  | .error e => ⟨s, some inp, none, .error e⟩
  | .ok modelBits =>
    let bits := if o.success then modelBits else chBits
    let (s', r) := s.update c bits label
    match r with
    | .error e => ⟨s', some inp, some (label, bits), .error e⟩
    | .ok _ =>
      match s'.dists[label]?, s'.ents[label]? with
      | some d, some h =>
        match maskIdx c.idx (structuralMask c.threshold h) with
        | .error e => ⟨s', some inp, some (label, bits), .error e⟩
        | .ok st => ⟨s', some inp, some (label, bits),
            .ok ⟨o.estimate, softOut c.kind o, o.success, o.iterations, d, st, label⟩⟩
      | _, _ => ⟨s', some inp, some (label, bits), .error .indexError⟩

/-- `decode_buffer`, classifiying_decoder.py:59-136. -/
noncomputable def Ced.decode {σ Λ : Type} (c : CedCfg) (cls : Labeler σ) (ldpc : Ldpc Λ) (s : Ced σ Λ) (ch : List ℝ) :
    CedStep σ Λ :=
  match takeIdx (hardBits ch) c.idx with
  | .error e => ⟨s, none, none, .error e⟩
  | .ok chBits =>
    let (cs, running, lab) := pickLabel cls c.nClusters c.cluster s.cls s.running chBits
    let s := { s with cls := cs, running := running }
    match lab with
    | .error e => ⟨s, none, none, .error e⟩
    | .ok label =>
      if label < 0 then
        let (l', o) := ldpc s.ldpc (plainInput c.kind ch)
        ⟨{ s with ldpc := l' }, some (plainInput c.kind ch), none,
          .ok ⟨o.estimate, softOut c.kind o, o.success, o.iterations, [], [], label⟩⟩
      else match s.prepare c ch label.toNat with
        | .error e => ⟨s, none, none, .error e⟩
        | .ok inp =>
          let (l', o) := ldpc s.ldpc inp
          Ced.finish c { s with ldpc := l' } chBits label.toNat inp o

/-- A sequence of calls: the final state and the steps. -/
noncomputable def Ced.run {σ Λ : Type} (c : CedCfg) (cls : Labeler σ) (ldpc : Ldpc Λ) :
    Ced σ Λ → List (List ℝ) → Ced σ Λ × List (CedStep σ Λ)
  | s, [] => (s, [])
  | s, ch :: rest =>
    let st := s.decode c cls ldpc ch
    let (s', steps) := Ced.run c cls ldpc st.state rest
    (s', st :: steps)

end NR

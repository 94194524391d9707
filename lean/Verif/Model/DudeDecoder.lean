import Verif.Model.EntropyDecoder
import Verif.Model.Dude
/-
Model of decoders/classifying_DUDE_decoder.py. Numbers are reals; an exception leaves the state as it is at that point.
-/
namespace NR

/-- Parameters of `ClassifyingDudeDecoder`, classifying_DUDE_decoder.py:10-60. `infoIdx` marks the information bits among the
codeword bits. -/
structure DudeCfg where
  modelLength : Nat
  infoIdx : List Bool
  clipping : ℝ
  bitFlip : ℝ
  context : Nat
  center : ℝ
  slope : ℝ
  nClusters : Nat
  cluster : Bool

/-- Mutable fields: one denoiser per model bit and cluster, the number of buffers per cluster, the round-robin index (the field
`classifier` when clustering is off) and the hidden states of the classifier and the LDPC decoder. -/
structure DudeDec (σ Λ : Type) where
  dudes : List (List OnlineDude)
  sizes : List Nat
  running : Int
  cls : σ
  ldpc : Λ

/-- `__init__`, classifying_DUDE_decoder.py:40-58. `np.linalg.inv` in the constructor of the denoisers raises for a flip
probability of exactly 1/2 (when there is at least one denoiser). -/
noncomputable def DudeDec.new {σ Λ : Type} (c : DudeCfg) (cls : σ) (ldpc : Λ) : Except PyErr (DudeDec σ Λ) :=
  open Classical in
  if c.bitFlip = 1 / 2 ∧ 0 < c.modelLength ∧ 0 < c.nClusters then .error .linAlgError
  else .ok
    { dudes := List.replicate c.nClusters (List.replicate c.modelLength { k := c.context, A := 2 })
      sizes := List.replicate c.nClusters 0
      running := -1
      cls := cls
      ldpc := ldpc }

/-- The probability of a one that a soft-decision denoiser returns (entry 1 of its vector): dude.py:40-43 and 58-63 with the
matrix of classifying_DUDE_decoder.py:41. -/
noncomputable def dudeDecide (f : ℝ) : Decide ℝ :=
  { echo := fun o => if o = 1 then 1 else 0
    dec := fun counts o => smoothPosterior !![1 - f, f; f, 1 - f] counts (if o = 1 then 1 else 0) 1 }

/-- The list comprehension of classifying_DUDE_decoder.py:121-122: each denoiser consumes its observation; a missing
observation is an IndexError after the earlier denoisers were updated. -/
noncomputable def denoiseAll (f : ℝ) : List OnlineDude → List Bool → List OnlineDude × Except PyErr (List ℝ)
  | [], _ => ([], .ok [])
  | d :: ds, [] => (d :: ds, .error .indexError)
  | d :: ds, o :: os =>
    match d.denoiseSample (dudeDecide f) (if o then 1 else 0) with
    | .error e => (d :: ds, .error e)
    | .ok (p, d') =>
      match denoiseAll f ds os with
      | (ds', .error e) => (d' :: ds', .error e)
      | (ds', .ok ps) => (d' :: ds', .ok (p :: ps))

/-- `model_prediction`, classifying_DUDE_decoder.py:112-128. Without denoisers the indexing `[:, :, 1]` raises. -/
noncomputable def DudeDec.predict {σ Λ : Type} (c : DudeCfg) (s : DudeDec σ Λ) (obs : List Bool) (label : Nat) :
    DudeDec σ Λ × Except PyErr (List ℝ) :=
  match s.sizes[label]?, s.dudes[label]? with
  | some size, some dudes =>
    let conf := modelConfidence size c.center c.slope
    let (dudes', r) := denoiseAll c.bitFlip dudes obs
    let s := { s with dudes := s.dudes.set label dudes' }
    match r with
    | .error e => (s, .error e)
    | .ok [] => (s, .error .indexError)
    | .ok ps => (s, .ok (ps.map fun (p : ℝ) => conf * Real.log ((1 - p + floatEps) / (p + floatEps))))
  | _, _ => (s, .error .indexError)

/-- What a call returns. -/
structure DudeOut where
  estimate : List Bool
  llr : List ℝ
  success : Bool
  iterations : Nat
  label : Int
  denoised : List Bool

/-- What a call does: the new state, what it handed to the LDPC decoder, the caller's array afterwards (line 101 adds to it in
place) and the result. -/
structure DudeStep (σ Λ : Type) where
  state : DudeDec σ Λ
  handed : Option (List ℝ)
  word : List ℝ
  result : Except PyErr DudeOut

/-- `decode_buffer`, classifying_DUDE_decoder.py:62-110. -/
noncomputable def DudeDec.decode {σ Λ : Type} (c : DudeCfg) (cls : Labeler σ) (ldpc : Ldpc Λ) (s : DudeDec σ Λ)
    (ch : List ℝ) : DudeStep σ Λ :=
  let idx := modelBitsIdx c.infoIdx c.modelLength
  match takeIdx (hardBits ch) idx with
  | .error e => ⟨s, none, ch, .error e⟩
  | .ok chBits =>
    let (cs, running, lab) := pickLabel cls c.nClusters c.cluster s.cls s.running chBits
    let s := { s with cls := cs, running := running }
    match lab with
    | .error e => ⟨s, none, ch, .error e⟩
    | .ok label =>
      if label < 0 then
        let (l', o) := ldpc s.ldpc (.llr ch)
        ⟨{ s with ldpc := l' }, some ch, ch, .ok ⟨o.estimate, o.llr, o.success, o.iterations, label, hardBits ch⟩⟩
      else match s.sizes[label.toNat]? with
        | none => ⟨s, none, ch, .error .indexError⟩
        | some size =>
          let s := { s with sizes := s.sizes.set label.toNat (size + 1) }
          match maxAbs ch with
          | .error e => ⟨s, none, ch, .error e⟩
          | .ok peak =>
            let clip := c.clipping * peak
            let (s, r) := s.predict c chBits label.toNat
            match r with
            | .error e => ⟨s, none, ch, .error e⟩
            | .ok model =>
              let ch' := addAt ch idx model
              let x := ch'.map fun (v : ℝ) => npClip (-clip) clip v
              let (l', o) := ldpc s.ldpc (.llr x)
              ⟨{ s with ldpc := l' }, some x, ch',
                .ok ⟨o.estimate, o.llr, o.success, o.iterations, label, hardBits x⟩⟩

/-- A sequence of calls: the final state and the steps. -/
noncomputable def DudeDec.run {σ Λ : Type} (c : DudeCfg) (cls : Labeler σ) (ldpc : Ldpc Λ) :
    DudeDec σ Λ → List (List ℝ) → DudeDec σ Λ × List (DudeStep σ Λ)
  | s, [] => (s, [])
  | s, ch :: rest =>
    let st := s.decode c cls ldpc ch
    let (s', steps) := DudeDec.run c cls ldpc st.state rest
    (s', st :: steps)

end NR

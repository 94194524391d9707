import Verif.Model.EntropyDecoder
import Verif.Model.BufferModel
import Verif.Model.Segmentation
import Verif.Model.Mavlink
/-
Model of EntropyBitwiseDecoder and EntropyBitwiseFlippingDecoder, decoders/entropy_bitwise_decoder.py:13-228. The two
classes differ in `model_prediction` and in what a word is (log-likelihood ratios or hard bits): `α` is the type of words.
Numbers are reals; an exception leaves the state as it is at that point. The attributes `structural_elements` and
`structural_values` are written but never read and are left out.
-/
namespace NR

/-- `np.packbits`: groups of eight bits, the last one filled with zeros. -/
def packBits (l : List Bool) : List Byte :=
  (List.range ((l.length + 7) / 8)).map fun i =>
    BitVec.ofNat 8 (bitsVal ((pySlice l (8 * i) (8 * i + 8) ++ List.replicate 8 false).take 8))

/-- Parameters, entropy_bitwise_decoder.py:34-54 and 144-164. `modelLength` is the attribute after `__init__`. -/
structure EbdCfg where
  idx : List Nat
  modelLength : Nat
  threshold : ℝ
  clipping : ℝ
  minData : Int
  window : Option Nat
  predefined : Bool

/-- Mutable fields, and the hidden state of the LDPC decoder. `dist` is the list of rows. -/
structure Ebd (Λ : Type) where
  dist : List (List ℝ)
  ents : List ℝ
  data : List (List Bool)
  ldpc : Λ

/-- The entropies of the rows of a distribution, `entropy(self.distribution)`. -/
noncomputable def rowEntropies (dist : List (List ℝ)) : List ℝ := dist.map fun r => scipyEntropy r 2

/-- `__init__` without a model, entropy_bitwise_decoder.py:48-52, 157-161. -/
def Ebd.new {Λ : Type} (ldpc : Λ) : Ebd Λ := ⟨[], [], [], ldpc⟩

/-- The `model_length` of a decoder with a model of `rows` rows, entropy_bitwise_decoder.py:44, 153. -/
def predefinedLength (rows idxSize : Nat) : Nat := min rows idxSize

/-- `__init__` with a model, entropy_bitwise_decoder.py:43-47, 152-156. -/
noncomputable def Ebd.newWith {Λ : Type} (modelLength : Nat) (model : List (List ℝ)) (ldpc : Λ) : Ebd Λ :=
  ⟨model.take modelLength, rowEntropies (model.take modelLength), [], ldpc⟩

/-- `update_model`, entropy_bitwise_decoder.py:87-101 and 197-211. -/
noncomputable def Ebd.update {Λ : Type} (c : EbdCfg) (s : Ebd Λ) (bits : List Bool) : Ebd Λ × Except PyErr Unit :=
  if c.predefined then (s, .ok ())
  else if bits.length ≠ c.modelLength then (s, .error .incorrectBufferLength)
  else
    let s := { s with data := growData c.window s.data bits }
    match probOf c.modelLength s.data with
    | .error e => (s, .error e)
    | .ok dist =>
      let d := dist.map fun (r : List ℚ) => r.map fun (q : ℚ) => (q : ℝ)
      ({ s with dist := d, ents := rowEntropies d }, .ok ())

/-- Whether the model may be used: entropy_bitwise_decoder.py:114 and (negated) 219. -/
def Ebd.ready {Λ : Type} (c : EbdCfg) (s : Ebd Λ) : Bool :=
  c.predefined || (decide (0 < s.data.flatten.length) && decide (c.minData ≤ s.data.length))

/-- `dist[:, 0]` and `dist[:, 1]` as pairs: an IndexError when rows are shorter. -/
noncomputable def rowPairs (dist : List (List ℝ)) : Except PyErr (List (ℝ × ℝ)) :=
  if dist.all (fun r => decide (1 < r.length)) then .ok (dist.map fun (r : List ℝ) => (r.getD 0 0, r.getD 1 0))
  else .error .indexError

/-- `model_prediction` of EntropyBitwiseDecoder, entropy_bitwise_decoder.py:103-122. -/
noncomputable def Ebd.predictSoft {Λ : Type} (c : EbdCfg) (s : Ebd Λ) (obs : List ℝ) : Except PyErr (List ℝ) := do
  let structural ← maskIdx c.idx (structuralMask c.threshold s.ents)
  if s.ready c then
    let m ← pyMax obs
    let clip := c.clipping * m
    let pairs ← rowPairs s.dist
    let v ← maskIdx (pairs.map fun (p : ℝ × ℝ) => npClip (-clip) clip (modelRatio p)) (structuralMask c.threshold s.ents)
    if structural.all (· < obs.length) then .ok (addAt obs structural v) else .error .indexError
  else .ok obs

/-- `prediction[idx] = values`. -/
def setAt (a : List Bool) (idx : List Nat) (v : List Bool) : List Bool :=
  (idx.zip v).foldl (fun (a : List Bool) (iv : Nat × Bool) => a.set iv.1 iv.2) a

open Classical in
/-- `model_prediction` of EntropyBitwiseFlippingDecoder, entropy_bitwise_decoder.py:213-228. The values are selected with
the indices of the bits in the codeword. -/
noncomputable def Ebd.predictHard {Λ : Type} (c : EbdCfg) (s : Ebd Λ) (obs : List Bool) : Except PyErr (List Bool) :=
  if s.ready c then do
    let structural ← maskIdx c.idx (structuralMask c.threshold s.ents)
    let pairs ← rowPairs s.dist
    let values ← takeIdx (pairs.map fun (p : ℝ × ℝ) => decide (1 / 2 < p.2)) structural
    if structural.all (· < obs.length) then .ok (setAt obs structural values) else .error .indexError
  else .ok obs

/-- What a call returns. -/
structure EbdOut where
  estimate : List Bool
  llr : List ℝ
  success : Bool
  iterations : Nat
  messages : Nat

/-- What a call does: the new state, what was handed to the LDPC decoder, and the result. -/
structure EbdStep (Λ : Type) where
  state : Ebd Λ
  handed : List LdpcIn
  result : Except PyErr EbdOut

/-- The end of `decode_buffer`, entropy_bitwise_decoder.py:70-75, 80-85 (180-185, 190-195): learning from a word that
consists of messages. -/
noncomputable def Ebd.finish {Λ : Type} (c : EbdCfg) (s : Ebd Λ) (handed : List LdpcIn) (o : LdpcOut) : EbdStep Λ :=
  match takeIdx o.estimate c.idx with
  | .error e => ⟨s, handed, .error e⟩
  | .ok bits => match segmentBuffer decode (packBits bits) with
    | .error e => ⟨s, handed, .error e⟩
    | .ok seg =>
      let (s', r) := if MsgPart.unknown ∉ seg.parts then s.update c bits else (s, .ok ())
      ⟨s', handed, r.map fun _ => ⟨o.estimate, o.llr, o.success, o.iterations, seg.struct.length⟩⟩

/-- `decode_buffer`, entropy_bitwise_decoder.py:57-85 and 167-195. -/
noncomputable def Ebd.decode {α Λ : Type} (c : EbdCfg) (inj : α → LdpcIn) (predict : Ebd Λ → α → Except PyErr α)
    (ldpc : Ldpc Λ) (s : Ebd Λ) (word : α) : EbdStep Λ :=
  let (l', o) := ldpc s.ldpc (inj word)
  let s := { s with ldpc := l' }
  if o.success then s.finish c [inj word] o
  else match predict s word with
    | .error e => ⟨s, [inj word], .error e⟩
    | .ok w =>
      let (l'', o) := ldpc s.ldpc (inj w)
      Ebd.finish c { s with ldpc := l'' } [inj word, inj w] o

/-- `EntropyBitwiseDecoder.decode_buffer`. -/
noncomputable def Ebd.decodeSoft {Λ : Type} (c : EbdCfg) (ldpc : Ldpc Λ) (s : Ebd Λ) (word : List ℝ) : EbdStep Λ :=
  s.decode c .llr (fun s w => s.predictSoft c w) ldpc word

/-- `EntropyBitwiseFlippingDecoder.decode_buffer`. -/
noncomputable def Ebd.decodeHard {Λ : Type} (c : EbdCfg) (ldpc : Ldpc Λ) (s : Ebd Λ) (word : List Bool) : EbdStep Λ :=
  s.decode c .bits (fun s w => s.predictHard c w) ldpc word

/-- A sequence of calls: the final state and the steps. -/
noncomputable def Ebd.run {α Λ : Type} (step : Ebd Λ → α → EbdStep Λ) : Ebd Λ → List α → Ebd Λ × List (EbdStep Λ)
  | s, [] => (s, [])
  | s, w :: rest =>
    let st := step s w
    let (s', steps) := Ebd.run step st.state rest
    (s', st :: steps)

end NR

import Verif.Model.BitwiseDecoder
/-
Model of EntropyBitwiseWeightedDecoder, decoders/entropy_bitwise_decoder.py:231-505. Numbers are reals (counters are
naturals); an exception leaves the state as it is at that point. `bit_flip` is not 1/2 (the code divides by 1 - 2 bit_flip).
-/
namespace NR

/-- Parameters, entropy_bitwise_decoder.py:254-288. `bayes` is `estimator == "Bayes"`. -/
structure WbdCfg where
  idx : List Nat
  modelLength : Nat
  threshold : ℝ
  clipping : ℝ
  window : Option Nat
  aCenter : ℝ
  aSlope : ℝ
  bCenter : ℝ
  bSlope : ℝ
  scheme : Int
  bayes : Bool
  bitFlip : ℝ
  correctedDist : Bool

/-- `a_normalized_variance`: absent (MLE before the first update), Python's `0.0` (Bayes before the first update) or a NumPy
float. -/
inductive Variance where
  | unset
  | pyZero
  | val (x : ℝ)

/-- One of the two models (`a_*` or `b_*` attributes). `dist` is the list of rows. -/
structure Half where
  dist : List (List ℝ)
  ents : List ℝ
  ones : List Nat
  zeros : List Nat
  data : List (List Bool)
  var : Variance

/-- The initial values, entropy_bitwise_decoder.py:263-266 and 275-287. -/
def Half.new (c : WbdCfg) : Half :=
  if c.bayes then ⟨[], [], List.replicate c.idx.length 1, List.replicate c.idx.length 1, [], .pyZero⟩
  else ⟨[], [], [], [], [], .unset⟩

/-- The counters after observing `bits`, entropy_bitwise_decoder.py:348-349, 400-401. -/
def countBits (ones zeros : List Nat) (bits : List Bool) : List Nat × List Nat :=
  (List.zipWith (fun n b => n + b.toNat) ones bits, List.zipWith (fun n b => n + (1 - b.toNat)) zeros bits)

/-- The rescaling of the counters, entropy_bitwise_decoder.py:351-358, 403-410. `w` is `min_size`; `max_size` is `2 * w`.
An IndexError when there are no counters. -/
def rescale (w : Nat) (ones zeros : List Nat) : Except PyErr (List Nat × List Nat) :=
  match ones, zeros with
  | o0 :: _, z0 :: _ =>
    if 2 * w < o0 + z0 then
      let g := List.zipWith Nat.gcd ones zeros
      let ones := List.zipWith (· / ·) ones g
      let zeros := List.zipWith (· / ·) zeros g
      let o := ones.headD 0
      let z := zeros.headD 0
      if o + z < w then
        let m := w / o + z
        .ok (ones.map (· * m), zeros.map (· * m))
      else .ok (ones, zeros)
    else .ok (ones, zeros)
  | _, _ => .error .indexError

/-- The mode of the beta distribution, entropy_bitwise_decoder.py:361, 412: `nan_to_num` turns 0/0 into 0, which is also
what division by zero gives here. -/
noncomputable def betaMode (o z : Nat) : ℝ := ((o : ℝ) - 1) / ((o : ℝ) + z - 2)

/-- The normalised variance, entropy_bitwise_decoder.py:364-368, 416-420. -/
noncomputable def betaVariance (f : ℝ) (ones zeros : List Nat) : ℝ :=
  12 * ((1 / (1 - 2 * f)) ^ 2 * ((List.zipWith (fun (o z : Nat) =>
    (o : ℝ) * z / (((o : ℝ) + z + 1) * ((o : ℝ) + z) ^ 2)) ones zeros).sum / ones.length))

open Classical in
/-- The check of the probabilities and the entropies, entropy_bitwise_decoder.py:386-389, 438-441. -/
noncomputable def Half.check (h : Half) (p1 : List ℝ) : Half × Except PyErr Unit :=
  if p1 = [] then (h, .error .valueError)
  else if ∃ p ∈ p1, p > 1 ∨ p < 0 then (h, .error .runtimeError)
  else ({ h with ents := rowEntropies h.dist }, .ok ())

/-- `update_model_a` and `update_model_b` (the same code on different attributes), entropy_bitwise_decoder.py:339-389,
391-441. -/
noncomputable def Half.update (c : WbdCfg) (h : Half) (bits : List Bool) : Half × Except PyErr Unit :=
  if bits.length ≠ c.modelLength then (h, .error .incorrectBufferLength)
  else if c.bayes then
    let (ones, zeros) := countBits h.ones h.zeros bits
    match rescale (c.window.getD 0) ones zeros with
    | .error e => ({ h with ones, zeros }, .error e)
    | .ok (ones, zeros) =>
      let p1 := List.zipWith (fun o z => corrected c.bitFlip (betaMode o z)) ones zeros
      Half.check { h with ones, zeros, var := .val (betaVariance c.bitFlip ones zeros),
                          dist := p1.map fun (p : ℝ) => [1 - p, p] } p1
  else
    let h := { h with data := growData c.window h.data bits }
    match probOf c.modelLength h.data with
    | .error e => (h, .error e)
    | .ok dist =>
      let h := { h with dist := dist.map fun (r : List ℚ) => r.map fun (q : ℚ) => (q : ℝ) }
      match column1 dist with
      | .error e => (h, .error e)
      | .ok v =>
        let p1 := v.map fun (q : ℚ) => if c.correctedDist then corrected c.bitFlip q else (q : ℝ)
        let h := if c.correctedDist then { h with dist := p1.map fun (p : ℝ) => [1 - p, p] } else h
        Half.check { h with var := .val (2 * ((p1.map fun (p : ℝ) => p - p ^ 2).sum / p1.length)) } p1

/-- The number of samples behind a model, entropy_bitwise_decoder.py:462-467. -/
def Half.size (c : WbdCfg) (h : Half) : Except PyErr Nat :=
  if c.bayes then match h.ones, h.zeros with
    | o :: _, z :: _ => .ok (o + z - 2)
    | _, _ => .error .indexError
  else .ok (if h.data.flatten.length = 0 then 0 else h.data.length)

/-- `1 - np.exp(-0.1 / variance)`, entropy_bitwise_decoder.py:488-489; a NumPy zero gives 1. -/
noncomputable def Variance.factor : Variance → Except PyErr ℝ
  | .unset => .error .attributeError
  | .pyZero => .error .zeroDivisionError
  | .val x => .ok (open Classical in if x = 0 then 1 else 1 - Real.exp (-(1 / 10) / x))

open Classical in
/-- The confidences, entropy_bitwise_decoder.py:473-491 (the third branch repeats the condition of the second and is never
taken). -/
noncomputable def confidences (scheme : Int) (a b : ℝ) (va vb : Variance) : Except PyErr (ℝ × ℝ) :=
  if scheme = 0 then .ok (a, b)
  else if scheme = 1 then
    if 0 < a + b then .ok (a * (a / (a + b)), b * (b / (a + b))) else .ok (a, b)
  else if scheme = 3 then .ok (a, 0)
  else if scheme = 4 then do
    let fa ← va.factor
    let fb ← vb.factor
    .ok (a * fa, b * fb)
  else if scheme = 5 then .ok (0, b)
  else .ok (a, b)

open Classical in
/-- Adding one model's ratios, entropy_bitwise_decoder.py:496-503. -/
noncomputable def addModel (llr : List ℝ) (h : Half) (mask : List Bool) (structural : List Nat) (conf : ℝ) :
    Except PyErr (List ℝ) :=
  if 0 < conf then do
    let pairs ← rowPairs h.dist
    let v ← maskIdx (pairs.map fun (p : ℝ × ℝ) => conf * modelRatio p) mask
    if structural.all (· < llr.length) then .ok (addAt llr structural v) else .error .indexError
  else .ok llr

/-- Mutable fields, and the hidden state of the LDPC decoder. -/
structure Wbd (Λ : Type) where
  a : Half
  b : Half
  ldpc : Λ

/-- `__init__`, entropy_bitwise_decoder.py:242-288: the Bayes estimator needs a window (`2 * None` is a TypeError). -/
def Wbd.new {Λ : Type} (c : WbdCfg) (ldpc : Λ) : Except PyErr (Wbd Λ) :=
  if c.bayes ∧ c.window = none then .error .typeError else .ok ⟨Half.new c, Half.new c, ldpc⟩

/-- `model_prediction`, entropy_bitwise_decoder.py:443-505. -/
noncomputable def Wbd.predict {Λ : Type} (c : WbdCfg) (s : Wbd Λ) (obs : List ℝ) : Except PyErr (List ℝ) := do
  let aMask := structuralMask c.threshold s.a.ents
  let bMask := structuralMask c.threshold s.b.ents
  let aS ← maskIdx c.idx aMask
  let bS ← maskIdx c.idx bMask
  if aS.all (· == 0) && bS.all (· == 0) then .ok obs
  else
    let aSize ← s.a.size c
    let bSize ← s.b.size c
    let (ca, cb) ← confidences c.scheme (modelConfidence aSize c.aCenter c.aSlope) (modelConfidence bSize c.bCenter c.bSlope)
      s.a.var s.b.var
    let m ← pyMax obs
    let clip := c.clipping * m
    let llr ← addModel obs s.a aMask aS ca
    let llr ← addModel llr s.b bMask bS cb
    .ok (llr.map fun (x : ℝ) => npClip (-clip) clip x)

/-- What a call returns (without syndrome and node validity). -/
structure WbdOut where
  estimate : List Bool
  llr : List ℝ
  success : Bool
  iterations : Nat
  messages : Nat
  aDist : List (List ℝ)
  bDist : List (List ℝ)
  aStructural : List Nat
  bStructural : List Nat

/-- What a call does: the new state, what was handed to the LDPC decoder, and the result. -/
structure WbdStep (Λ : Type) where
  state : Wbd Λ
  handed : List LdpcIn
  result : Except PyErr WbdOut

/-- `update_model_a`. -/
noncomputable def Wbd.updateA {Λ : Type} (c : WbdCfg) (s : Wbd Λ) (bits : List Bool) : Wbd Λ × Except PyErr Unit :=
  let (a, r) := s.a.update c bits
  ({ s with a }, r)

/-- `update_model_b`. -/
noncomputable def Wbd.updateB {Λ : Type} (c : WbdCfg) (s : Wbd Λ) (bits : List Bool) : Wbd Λ × Except PyErr Unit :=
  let (b, r) := s.b.update c bits
  ({ s with b }, r)

/-- The learning of a call, entropy_bitwise_decoder.py:314-316, 329-334: model a gets `bits` if they were recovered, model b
always gets a word. -/
noncomputable def Wbd.learn {Λ : Type} (c : WbdCfg) (s : Wbd Λ) (recovered : Bool) (bits other : List Bool) :
    Wbd Λ × Except PyErr Unit :=
  if recovered then
    match s.updateA c bits with
    | (s, .error e) => (s, .error e)
    | (s, .ok _) => s.updateB c bits
  else s.updateB c other

/-- The return statement, entropy_bitwise_decoder.py:318-321, 335-337. -/
noncomputable def Wbd.output {Λ : Type} (c : WbdCfg) (s : Wbd Λ) (o : LdpcOut) (messages : Nat) : Except PyErr WbdOut := do
  let aS ← maskIdx c.idx (structuralMask c.threshold s.a.ents)
  let bS ← maskIdx c.idx (structuralMask c.threshold s.b.ents)
  .ok ⟨o.estimate, o.llr, o.success, o.iterations, messages, s.a.dist, s.b.dist, aS, bS⟩

/-- The end of a call after the deciding run of the LDPC decoder, entropy_bitwise_decoder.py:311-321, 326-337. `first` tells
whether this is the run on the received word `word`. -/
noncomputable def Wbd.finish {Λ : Type} (c : WbdCfg) (s : Wbd Λ) (handed : List LdpcIn) (o : LdpcOut) (first : Bool)
    (word : List ℝ) : WbdStep Λ :=
  match takeIdx o.estimate c.idx with
  | .error e => ⟨s, handed, .error e⟩
  | .ok bits => match segmentBuffer decode (packBits bits) with
    | .error e => ⟨s, handed, .error e⟩
    | .ok seg =>
      let recovered := decide (MsgPart.unknown ∉ seg.parts)
      match (if first || recovered then .ok bits else takeIdx (hardBits word) c.idx) with
      | .error e => ⟨s, handed, .error e⟩
      | .ok other => match s.learn c recovered bits other with
        | (s, .error e) => ⟨s, handed, .error e⟩
        | (s, .ok _) => ⟨s, handed, s.output c o seg.struct.length⟩

/-- `decode_buffer`, entropy_bitwise_decoder.py:290-337. -/
noncomputable def Wbd.decode {Λ : Type} (c : WbdCfg) (ldpc : Ldpc Λ) (s : Wbd Λ) (word : List ℝ) : WbdStep Λ :=
  let (l', o) := ldpc s.ldpc (.llr word)
  let s := { s with ldpc := l' }
  if o.success then s.finish c [.llr word] o true word
  else match s.predict c word with
    | .error e => ⟨s, [.llr word], .error e⟩
    | .ok w =>
      let (l'', o) := ldpc s.ldpc (.llr w)
      Wbd.finish c { s with ldpc := l'' } [.llr word, .llr w] o false word

/-- A sequence of calls: the final state and the steps. -/
noncomputable def Wbd.run {Λ : Type} (c : WbdCfg) (ldpc : Ldpc Λ) : Wbd Λ → List (List ℝ) → Wbd Λ × List (WbdStep Λ)
  | s, [] => (s, [])
  | s, w :: rest =>
    let st := s.decode c ldpc w
    let (s', steps) := Wbd.run c ldpc st.state rest
    (s', st :: steps)

end NR

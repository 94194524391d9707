import Verif.Model.InfoTheory
/-
Model of decoders/turbo.py and of `confusion` in decoders/mavlink_decoder.py.
-/
namespace NR

/-- A binary operation on one-dimensional arrays with NumPy's broadcasting. -/
def bcastWith {α : Type} (f : α → α → α) (a b : List α) : Except PyErr (List α) :=
  if a.length = b.length then .ok (List.zipWith f a b)
  else match a, b with
    | [x], b => .ok (b.map (f x))
    | a, [y] => .ok (a.map (f · y))
    | _, _ => .error .valueError

/-- `errors_bool[error_idx] = True` on an array of `n` falses (negative indices count from the end), turbo.py:9-10. -/
def errorMask (n : Nat) (errorIdx : List Int) : Except PyErr (List Bool) :=
  if errorIdx.all fun i => decide (-(n : Int) ≤ i ∧ i < n) then
    .ok (errorIdx.foldl (fun (a : List Bool) (i : Int) => a.set (if i < 0 then i + n else i).toNat true)
      (List.replicate n false))
  else .error .indexError

/-- `track_errors`, turbo.py:7-12. Simplification: words of different lengths raise a ValueError (the comparison of NumPy
arrays of different shapes, lengths 0 and 1 aside). -/
def trackErrors (errorIdx : List Int) (rx estimate : List Bool) : Except PyErr Nat := do
  let errors ← errorMask rx.length errorIdx
  let tx := List.zipWith (fun a b => a ^^ b) rx errors
  if tx.length = estimate.length then .ok ((List.zipWith (fun a b => a != b) tx estimate).count true)
  else .error .valueError

/-- The first three values returned by a decoder. -/
structure SoftOut where
  estimate : List Bool
  llr : List ℝ
  success : Bool

/-- A constituent decoder with a hidden state; it may raise. -/
abbrev SoftDec (S : Type) := S → List ℝ → S × Except PyErr SoftOut

/-- What `TurboDecoder.decode_buffer` returns. -/
structure TurboOut where
  estimate : List Bool
  llr : List ℝ
  success : Bool
  which : Nat
  errors : Nat

/-- The states of the two constituent decoders after the call, and its result. -/
abbrev TurboRes (S T : Type) := S × T × Except PyErr TurboOut

/-- The debug branch of a round, turbo.py:48-50: `err2`, or an exception. Without debug no error is computed (0 here, the
value returned then). -/
noncomputable def turboErr (debug : Bool) (errorIdx : List Int) (ch : List ℝ) (est1 est2 : List Bool) :
    Except PyErr Nat :=
  open Classical in
  if debug then do
    let rx := ch.map fun (x : ℝ) => decide (x < 0)
    let _ ← trackErrors errorIdx rx est1
    trackErrors errorIdx rx est2
  else .ok 0

/-- The loop of `decode_buffer`, turbo.py:36-56, with `n` rounds left. `last` is `estimate2, llr2, decode_success2` and
`err2` of the previous round, unbound before the first. -/
noncomputable def turboLoop {S T : Type} (d1 : SoftDec S) (d2 : SoftDec T) (debug : Bool) (errorIdx : List Int)
    (ch : List ℝ) : Nat → S → T → List ℝ → Option (SoftOut × Nat) → TurboRes S T
  | 0, s, t, _, last =>
    match last with
    | none => (s, t, .error .unboundLocalError)
    | some (o, err) => (s, t, .ok ⟨o.estimate, o.llr, o.success, 2, err⟩)
  | n + 1, s, t, prior1, _ =>
    match bcastWith (fun (a b : ℝ) => a + b) ch prior1 with
    | .error e => (s, t, .error e)
    | .ok x1 =>
      let (s, r1) := d1 s x1
      match r1 with
      | .error e => (s, t, .error e)
      | .ok o1 =>
        if o1.success then (s, t, .ok ⟨o1.estimate, o1.llr, true, 1, 0⟩)
        else match (do
            let p ← bcastWith (fun (a b : ℝ) => a - b) o1.llr ch
            let prior2 ← bcastWith (fun (a b : ℝ) => a - b) p prior1
            let x2 ← bcastWith (fun (a b : ℝ) => a + b) prior2 ch
            pure (prior2, x2) : Except PyErr (List ℝ × List ℝ)) with
          | .error e => (s, t, .error e)
          | .ok (prior2, x2) =>
            let (t, r2) := d2 t x2
            match r2 with
            | .error e => (s, t, .error e)
            | .ok o2 =>
              if o2.success then (s, t, .ok ⟨o2.estimate, o2.llr, true, 2, 0⟩)
              else match (do
                  let p ← bcastWith (fun (a b : ℝ) => a - b) o2.llr ch
                  let prior1 ← bcastWith (fun (a b : ℝ) => a - b) p prior2
                  let err ← turboErr debug errorIdx ch o1.estimate o2.estimate
                  pure (prior1, err) : Except PyErr (List ℝ × Nat)) with
                | .error e => (s, t, .error e)
                | .ok (prior1, err) => turboLoop d1 d2 debug errorIdx ch n s t prior1 (some (o2, err))

/-- `TurboDecoder.decode_buffer`, turbo.py:25-57. `max_iter` is non-negative (a negative one behaves as 0). -/
noncomputable def turboDecode {S T : Type} (d1 : SoftDec S) (d2 : SoftDec T) (maxIter : Nat) (debug : Bool) (s : S) (t : T)
    (ch : List ℝ) (errorIdx : List Int) : TurboRes S T :=
  turboLoop d1 d2 debug errorIdx ch maxIter s t (List.replicate ch.length 0) none

/-- `confusion`, mavlink_decoder.py:12-19:
`[TP, FP, TN, FN, positive, negative]`. -/
def confusion (predicted actual : List Int) (negative : Int) : List Int :=
  let tp := ((npUnique predicted).filter fun x => decide (x ∈ npUnique actual)).length
  let fp := ((npUnique predicted).filter fun x => !decide (x ∈ npUnique actual)).length
  let fn := ((npUnique actual).filter fun x => !decide (x ∈ npUnique predicted)).length
  [tp, fp, negative - fp, fn, actual.length, negative]

end NR

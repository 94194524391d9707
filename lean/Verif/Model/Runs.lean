import Verif.Model.Py
/-
Model of `encode_data`, runs/HC_eilat_July_2018/ecncoding_data.py, and `relabel`, runs/clsutering_analysis/functions.py.
-/
namespace NR

/-- `Bits(uint=random.getrandbits(n), length=n)` with the hidden state of the generator: bitstring refuses to create an
unsigned integer of length 0. The generator's bits beyond `n` do not matter. -/
def randomBits {G : Type} (rng : G → Nat → G × (Nat → Bool)) (g : G) (n : Nat) : G × Except PyErr (List Bool) :=
  let (g, bits) := rng g n
  if n = 0 then (g, .error .creationError) else (g, .ok ((List.range n).map bits))

/-- The loop body of `encode_data` for one buffer, ecncoding_data.py:13-26. `encode` is `encoder.encode`. -/
def encodeBuffer {G β : Type} (encode : List Bool → β) (rng : G → Nat → G × (Nat → Bool)) (k : Nat) (g : G)
    (data : List Bool) : G × Except PyErr (List β) :=
  if data.length ≤ k then
    let (g, pad) := randomBits rng g (k - data.length)
    match pad with
    | .error e => (g, .error e)
    | .ok pad => (g, .ok [encode (data ++ pad)])
  else if k = 0 then (g, .error .zeroDivisionError)
  else
    let full := (List.range (data.length / k)).map fun i => encode (pySlice data (i * k) ((i + 1) * k))
    let i := data.length / k - 1
    if (i + 1) * k < data.length then
      let tail := data.drop ((i + 1) * k)
      let (g, pad) := randomBits rng g (k - tail.length)
      match pad with
      | .error e => (g, .error e)
      | .ok pad => (g, .ok (full ++ [encode (tail ++ pad)]))
    else (g, .ok full)

/-- `encode_data`, ecncoding_data.py:7-27, from the loaded buffers on. -/
def encodeData {G β : Type} (encode : List Bool → β) (rng : G → Nat → G × (Nat → Bool)) (k : Nat) :
    G → List (List Bool) → G × Except PyErr (List β)
  | g, [] => (g, .ok [])
  | g, data :: rest =>
    let (g, r) := encodeBuffer encode rng k g data
    match r with
    | .error e => (g, .error e)
    | .ok ws =>
      let (g, r) := encodeData encode rng k g rest
      match r with
      | .error e => (g, .error e)
      | .ok vs => (g, .ok (ws ++ vs))

/-- The running best of `argmax`. -/
def argmaxIntFrom (best : Int) (bi : Nat) : Nat → List Int → Nat
  | _, [] => bi
  | i, y :: ys => if best < y then argmaxIntFrom y i (i + 1) ys else argmaxIntFrom best bi (i + 1) ys

/-- `argmax` of an integer array, the first position of the largest value; a ValueError when empty. -/
def argmaxInt : List Int → Except PyErr Nat
  | [] => .error .valueError
  | y :: ys => .ok (argmaxIntFrom y 0 1 ys)

/-- The predictions for one real label, functions.py:13-21: every `n`-th label, or the labels at the positions of this real
label. -/
def predictionsOf (predicted : List Int) (n r : Nat) (real : Option (List Int)) : Except PyErr (List Int) :=
  match real with
  | none =>
    let p := ((List.range predicted.length).filter fun i => i % n == r).filterMap (predicted[·]?)
    if p.length = predicted.length / n then .ok p
    else if p.length = 1 then .ok (List.replicate (predicted.length / n) (p.getD 0 0))
    else .error .valueError
  | some real =>
    if real.length ≠ predicted.length then .error .indexError
    else .ok ((predicted.zip real).filterMap fun x => if x.2 = (r : Int) then some x.1 else none)

/-- `prediction_counts`, functions.py:24-27 (the padding with -1 is never counted). -/
def predictionCounts (predicted : List Int) (n : Nat) (real : Option (List Int)) : Except PyErr (List (List Int)) :=
  (List.range n).mapM fun r => do
    let p ← predictionsOf predicted n r real
    .ok ((List.range n).map fun (c : Nat) => ((p.count (c : Int) : Nat) : Int))

/-- `labels_map[k] = v` on the items of a dict. -/
def dictPut (m : List (Nat × Nat)) (k v : Nat) : List (Nat × Nat) :=
  if m.any fun x => x.1 == k then m.map fun x => if x.1 = k then (k, v) else x else m ++ [(k, v)]

/-- `reduced_prediction_counts[:, c] = -1`. -/
def dropColumn (m : List (List Int)) (c : Nat) : List (List Int) := m.map fun row => row.set c (-1)

/-- The loop of functions.py:32-35: `left` iterations. -/
def relabelLoop (n : Nat) : Nat → List (List Int) → List (Nat × Nat) → Except PyErr (List (List Int) × List (Nat × Nat))
  | 0, m, map => .ok (m, map)
  | left + 1, m, map => do
    let a ← argmaxInt m.flatten
    relabelLoop n left (dropColumn m (a % n)) (dictPut map (a % n) (a / n))

/-- The map of functions.py:28-38: `n_classes - 1` greedy choices, then the remaining column gets the smallest unused true
label. -/
def relabelMap (n : Nat) (counts : List (List Int)) : Except PyErr (List (Nat × Nat)) := do
  let (m, map) ← relabelLoop n (n - 1) counts []
  let a ← argmaxInt m.flatten
  match (List.range n).filter fun t => !(map.map Prod.snd).contains t with
  | [] => .error .indexError
  | t :: _ => .ok (dictPut map (a % n) t)

/-- `relabeled`, functions.py:40-42. -/
def applyMap (predicted : List Int) (map : List (Nat × Nat)) : List Int :=
  map.foldl (fun acc kv => List.zipWith (fun (p a : Int) => if p = kv.1 then (kv.2 : Int) else a) predicted acc)
    (predicted.map fun _ => 255)

/-- `relabel`, functions.py:4-43. -/
def relabel (predicted : List Int) (n : Nat) (real : Option (List Int)) :
    Except PyErr (List Int × List (Nat × Nat)) := do
  if n = 0 ∧ real = none then .error .zeroDivisionError
  else
    let counts ← predictionCounts predicted n real
    let map ← relabelMap n counts
    .ok (applyMap predicted map, map)

end NR

import Verif.Model.BitwiseDecoder
/-
Model of the scripts that turn a recorded mission into buffers and code words:
runs/HC_eilat_July_2018/data/msg_creator.py, scripts/train_estimator.py and the identical encoding loops of
scripts/classifier_analysis.py:57-78 and runs/HC_eilat_July_2018/simulated_data_mavlink_decoding.py:72-92.

The recording itself (a .mat file) is an arbitrary table of numbers. Times are integers (milliseconds).
-/
namespace NR
open Dialect

/-- One recorded sensor: the time column and the other columns, in the order of the recording (msg_creator.py:11-62). -/
structure Sensor where
  times : List Int
  cols : List (List Val)
  deriving DecidableEq, Repr

/-- Column `j` of the recording at row `i`, e.g. `svs_speed[idx]`; column 0 is the time. -/
def Sensor.column (s : Sensor) (j i : Nat) : Except PyErr FieldVal :=
  match j with
  | 0 => match s.times[i]? with | some t => .ok (.num (.int t)) | none => .error .indexError
  | j + 1 =>
    match s.cols[j]? with
    | none => .error .indexError
    | some c => match c[i]? with | some v => .ok (.num v) | none => .error .indexError

/-- `np.argmax(times >= t)`, e.g. msg_creator.py:71: the first true entry, 0 if there is none; ValueError for an empty
array. -/
def sampleIndex (times : List Int) (t : Int) : Except PyErr Nat :=
  if times = [] then .error .valueError else .ok ((times.findIdx? fun x => decide (t ≤ x)).getD 0)

/-- Arguments of a message's constructor for time `t`, e.g. msg_creator.py:102-105; `order` are the columns in the order of
the constructor's parameters. -/
def messageArgs (s : Sensor) (order : List Nat) (t : Int) : Except PyErr (List FieldVal) := do
  let idx ← sampleIndex s.times t
  order.mapM fun j => s.column j idx

/-- The five sensors of the recording. -/
structure Recording where
  position : Sensor
  pinger : Sensor
  attitude : Sensor
  svs : Sensor
  chamber : Sensor
  deriving DecidableEq, Repr

/-- Message class, columns in the order they are passed, and sensor of the five messages of a buffer,
msg_creator.py:71-113. The columns are numbered as they are read at lines 12-62: `svs` holds time, speed, depth, reserved,
temp, status and `chamber_status` time, temp, hum, num, press. -/
def Recording.messages (r : Recording) : List (MsgClass × List Nat × Sensor) :=
  [(msg33, [0, 1, 2, 3, 4, 5, 6, 7, 8, 9, 10], r.position), (msg234, [0, 1, 2], r.pinger),
   (msg30, [0, 1, 2, 3, 4, 5, 6], r.attitude), (msg212, [0, 1, 2, 4, 5, 3], r.svs), (msg218, [0, 3, 4, 1, 2], r.chamber)]

/-- One message of the buffer: build, `buffer += pos.pack(mav)`, `mav.seq = (mav.seq + 1) % 256` (msg_creator.py:72-82),
with `mav = MAVLink(1, 1, 1)` (system 1, component 1). The state is `mav.seq` and the buffer. -/
def appendMessage (t : Int) (st : Nat × List Byte) (x : MsgClass × List Nat × Sensor) : Except PyErr (Nat × List Byte) := do
  let args ← messageArgs x.2.2 x.2.1 t
  let frame ← packMsg x.1 args st.1 1 1
  .ok ((st.1 + 1) % 256, st.2 ++ frame)

/-- The buffer for time `t`, msg_creator.py:68-115: the next sequence number and the bytes. -/
def createBuffer (r : Recording) (t : Int) (seq : Nat) : Except PyErr (Nat × List Byte) :=
  r.messages.foldlM (appendMessage t) (seq, [])

/-- The loop over the time vector, msg_creator.py:67-117. -/
def createBuffers (r : Recording) : List Int → Nat → Except PyErr (Nat × List (List Byte))
  | [], seq => .ok (seq, [])
  | t :: ts, seq => do
    let (seq, b) ← createBuffer r t seq
    let (seq, bs) ← createBuffers r ts seq
    .ok (seq, b :: bs)

/-- `np.arange(initial_time, final_time, delay)` for integers and a positive delay, msg_creator.py:29. -/
def timeVec (first final : Int) (delay : Nat) : List Int :=
  (List.range ((final - first + delay - 1) / delay).toNat).map fun (i : Nat) => first + (i : Int) * (delay : Int)

/-- Number of information bits of the code used for a number of clusters, train_estimator.py:21-28: rate 2/3 of 1944, rate
1/2 of 1296, rate 3/4 of 648; ValueError for another number. -/
def infoBits : Nat → Except PyErr Nat
  | 1 => .ok 1296
  | 2 => .ok 648
  | 3 => .ok 486
  | _ => .error .valueError

/-- `Bits(auto=rng.integers(low=0, high=2, size=n))` with the hidden state of the generator; a negative size is a
ValueError. -/
def drawBits {G : Type} (rng : G → Nat → G × (Nat → Bool)) (g : G) (n : Int) : G × Except PyErr (List Bool) :=
  if n < 0 then (g, .error .valueError)
  else
    let (g, bits) := rng g n.toNat
    (g, .ok ((List.range n.toNat).map bits))

/-- The information words handed to `encoder.encode` for one buffer, train_estimator.py:32-47. -/
def infoWords {G : Type} (rng : G → Nat → G × (Nat → Bool)) (g : G) (nClusters k : Nat) (data : List Bool) :
    G × Except PyErr (List (List Bool)) :=
  match nClusters with
  | 1 =>
    match drawBits rng g ((k : Int) - data.length) with
    | (g, .error e) => (g, .error e)
    | (g, .ok pad) => (g, .ok [data ++ pad])
  | 2 =>
    match drawBits rng g ((k : Int) - 576) with
    | (g, .error e) => (g, .error e)
    | (g, .ok pad) => (g, .ok [data.take 576 ++ pad, data.drop 576])
  | 3 =>
    match drawBits rng g ((k : Int) - 416) with
    | (g, .error e) => (g, .error e)
    | (g, .ok pad1) =>
      match drawBits rng g ((k : Int) - (864 - 416)) with
      | (g, .error e) => (g, .error e)
      | (g, .ok pad2) =>
        match drawBits rng g ((k : Int) - (1224 - 864)) with
        | (g, .error e) => (g, .error e)
        | (g, .ok pad3) => (g, .ok [data.take 416 ++ pad1, pySlice data 416 864 ++ pad2, data.drop 864 ++ pad3])
  | _ => (g, .ok [])

/-- The parts of a buffer whose structures the scripts compute, simulated_data_mavlink_decoding.py:99-112. -/
def clusterParts (nClusters : Nat) (data : List Bool) : Except PyErr (List (List Bool)) :=
  match nClusters with
  | 1 => .ok [data]
  | 2 => .ok [data.take 576, data.drop 576]
  | 3 => .ok [data.take 416, pySlice data 416 864, data.drop 864]
  | _ => .error .valueError

/-- `for _ in range(m): encoded.extend(encoded)`, classifier_analysis.py:76-77. -/
def multiplyData {α : Type} (encoded : List α) : Nat → List α
  | 0 => encoded
  | m + 1 => multiplyData (encoded ++ encoded) m

/-- `p` and `dist` of train_estimator.py:49-55: the column sums are taken in 16-bit unsigned integers. `n` is `encoder.n`. An
encoder that returns another number of bits is not modelled. -/
def trainDist (encoded : List (List Bool)) (n : Nat) : Except PyErr (List (ℚ × ℚ)) :=
  if encoded = [] then .error .zeroDivisionError
  else .ok ((List.range n).map fun j =>
    let sum : Nat := (encoded.map fun w => if w.getD j false then 1 else 0).foldl (fun a b => (a + b) % 65536) 0
    let p : ℚ := (sum : ℚ) / encoded.length
    (1 - p, p))

end NR

import Verif.Model.DecodingRuns
/-
Model of the summaries of the oldest comparisons, runs/HC_eilat_July_2018/simulated_data_entropy_bitwise_decoder_script_mp.py:103-160,
simulated_data_entropy_bitwise_decoder_script.py:97-158 and simulated_data_entropy_bitwise_decoder_predefined_model.py:101-158: three
decoders, whose results are kept as tuples of mixed entries, and success counted from one entry of every tuple. The answers of the
decoders are given (Model/Studies.lean models how they come about); prints without arithmetic and files are not modelled.
-/
namespace NR.OldStudies
open NR

/-- An entry of a tuple of results. -/
inductive Cell
  | array (l : List ℝ)
  | flag (b : Bool)
  | count (n : Nat)

open Classical in
/-- `int(entry == 0)`: the comparison of an array is an array, and only arrays of one element can be turned into an integer. -/
noncomputable def Cell.isZero : Cell → Except PyErr Nat
  | .array [x] => .ok (if x = 0 then 1 else 0)
  | .array _ => .error .typeError
  | .flag b => .ok (if b then 0 else 1)
  | .count n => .ok (if n = 0 then 1 else 0)

/-- What a decoder returned for a word. The last two arrays are returned by the plain decoder only; `messages` is the number of MAVLink
messages found, by the decoder or in script_mp.py:119-120 for the plain decoder. -/
structure Answer where
  estimate : List Bool
  llr : List ℝ
  success : Bool
  iterations : Nat
  syndrome : List ℝ
  validity : List ℝ
  messages : Nat

/-- The estimate as an entry of a tuple. -/
def Answer.bits (a : Answer) : Cell := .array (a.estimate.map fun b => if b then 1 else 0)

/-- `(*d, len(s), hamming_distance(…))` for the plain decoder, whose `decode` returns six values (decoders/entropy_bitwise_decoder.py:68),
script_mp.py:121. -/
def Answer.plainRow (a : Answer) (h : Nat) : List Cell :=
  [a.bits, .array a.llr, .flag a.success, .count a.iterations, .array a.syndrome, .array a.validity, .count a.messages, .count h]

/-- `(*d, hamming_distance(…))` for the decoders with a model, whose `decode_buffer` returns five values
(decoders/entropy_bitwise_decoder.py:75, 85, 185, 195), script_mp.py:123, 125. -/
def Answer.modelRow (a : Answer) (h : Nat) : List Cell :=
  [a.bits, .array a.llr, .flag a.success, .count a.iterations, .count a.messages, .count h]

/-- Which entry counts as the number of wrong bits. -/
abbrev Pick := List Cell → Except PyErr Cell

/-- `res[5]`, script_mp.py:127-131, 135, 145, 152; script.py:125-129, 133, 143, 150. -/
def pickFive : Pick := fun r => match r[5]? with
  | some c => .ok c
  | none => .error .indexError

/-- `res[-1]`, simulated_data_entropy_bitwise_decoder_predefined_model.py:125-129, 133, 143, 150. -/
def pickLast : Pick := fun r => match r.getLast? with
  | some c => .ok c
  | none => .error .indexError

/-- `sum(int(res[…] == 0) for res in …)`. -/
noncomputable def successes (pick : Pick) : List (List Cell) → Except PyErr Nat
  | [] => .ok 0
  | r :: rs => do
    let c ← pick r
    let z ← c.isZero
    let t ← successes pick rs
    .ok (z + t)

/-- One of the lists of results, in the loop over the words. -/
def rows (row : Answer → Nat → List Cell) : List (List Bool × Answer) → Except PyErr (List (List Cell))
  | [] => .ok []
  | (tx, a) :: rest => do
    let h ← hammingDistance (.bits a.estimate) (.bits tx)
    let t ← rows row rest
    .ok (row a h :: t)

/-- `sum(hamming_distance(encoded[idx], Bits(auto=decoded[idx][0])) for idx in range(n))`, script_mp.py:139-142. -/
def wrong : List (List Bool × Answer) → Except PyErr Nat
  | [] => .ok 0
  | (tx, a) :: rest => do
    let h ← hammingDistance (.bits tx) (.bits a.estimate)
    let t ← wrong rest
    .ok (h + t)

/-- What a step saves. -/
structure Summary where
  rawBer : ℚ
  bufferLen : Nat
  number : Nat
  ldpc : Rates
  entropy : Rates
  flipping : Rates

/-- `simulation_step` after the decoders have answered, for a code of `N` bits, script_mp.py:117-160. A `/ float(0)` raises a
ZeroDivisionError. Simplification: the loop goes over the words once for each decoder. -/
noncomputable def study (pick : Pick) (N : Nat) (p : ℚ) (words : List (List Bool)) (plain entropy flipping : List Answer) :
    Except PyErr Summary := do
  let a ← rows Answer.plainRow (words.zip plain)
  let b ← rows Answer.modelRow (words.zip entropy)
  let c ← rows Answer.modelRow (words.zip flipping)
  let sa ← successes pick a
  let sb ← successes pick b
  let sc ← successes pick c
  match words with
  | [] => .error .zeroDivisionError
  | w :: ws =>
    let n := ws.length + 1
    if w.length = 0 then .error .zeroDivisionError
    else do
      let wa ← wrong ((w :: ws).zip plain)
      let wb ← wrong ((w :: ws).zip entropy)
      let wc ← wrong ((w :: ws).zip flipping)
      let rates (s e : Nat) : Rates := ⟨(s : ℚ) / n, (e : ℚ) / ((n * w.length : ℕ) : ℚ)⟩
      .ok { rawBer := errorCount N p / (N : ℚ), bufferLen := w.length, number := n,
            ldpc := rates sa wa, entropy := rates sb wb, flipping := rates sc wc }

end NR.OldStudies

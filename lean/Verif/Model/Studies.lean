import Verif.Model.Awgn
/-
Model of the comparisons of more than two decoders, runs/HC_eilat_July_2018/simulate_gallager_bf.py:73-163 (three decoders),
simulated_data_pretrained_model.py:83-187 (three), simulated_data_combined_decoder.py:131-249 (four) and
simluated_data_entropy_bf_decoders.py:75-235 (seven, over a channel with Gaussian noise). The loops of
simulated_data_classifying_dude_decoder.py:103-181, simulated_data_entropy_bitwise_decoder_weighted_model.py:122-202,
simulated_data_entropy_bitwise_decoder_predefined_model.py:86-162 and runs/Feb_2022/simulation_rafael_code.py:81-157 are the same with
two or three decoders; the second and the third also count MAVLink messages, and the third draws the errors of a word in the loop. Decoders are parameters as in
Model/DecodingRuns.lean, rates are rational numbers; data frames, files and log lines without arithmetic are not modelled.
-/
namespace NR.Studies
open NR

/-- What is known about a received word: the ratios, the values received before they are turned into ratios (the bits or the samples)
and the positions drawn for the errors (binary channel only). -/
structure Reception where
  ratios : List ℝ
  samples : List ℝ
  errors : List Nat

/-- What a decoder is called with: `decode(channel_llr)`, `decode_buffer(channel_llr, errors[tx_idx])`, and `decode(noisy)` or
`decode_buffer(corrupted)`, simulated_data_combined_decoder.py:187-193, simluated_data_entropy_bf_decoders.py:138-150,
simulated_data_entropy_bitwise_decoder_predefined_model.py:123. -/
inductive View | ratios | ratiosAndErrors | samples

/-- The arguments of the call. -/
def View.of : View → Reception → List ℝ × Option (List Nat)
  | .ratios, r => (r.ratios, none)
  | .ratiosAndErrors, r => (r.ratios, some r.errors)
  | .samples, r => (r.samples, none)

/-- One of the decoders compared: how it works, its state before the next word and what it is called with. Simplification: one type of
states serves all decoders, e.g. the sum of the types of their states. -/
structure Contender (σ : Type) where
  run : Coder σ
  state : σ
  view : View

variable {σ : Type}

/-- `d = decoder.decode(…)` and `hamming_distance(d[0], encoded[tx_idx])` for one decoder: the decoder afterwards and the distance. -/
def Contender.attempt (c : Contender σ) (r : Reception) (tx : List Bool) : Except PyErr (Contender σ × Nat) := do
  let o := c.run c.state (c.view.of r).1 (c.view.of r).2
  let est ← o.2
  let h ← hammingDistance (.bits est.1) (.bits tx)
  .ok ({ c with state := o.1 }, h)

/-- The body of the loop for one word, every decoder in turn: simulated_data_combined_decoder.py:187-194, simulate_gallager_bf.py
:116-121, simulated_data_pretrained_model.py:129-134, simluated_data_entropy_bf_decoders.py:138-151. -/
def attempts : List (Contender σ) → Reception → List Bool → Except PyErr (List (Contender σ) × List Nat)
  | [], _, _ => .ok ([], [])
  | c :: cs, r, tx => do
    let (c', h) ← c.attempt r tx
    let (cs', hs) ← attempts cs r tx
    .ok (c' :: cs', h :: hs)

/-- The loop over the words: for every word the distances, in the order of the decoders. -/
def loop : List (Contender σ) → List (Reception × List Bool) → Except PyErr (List (List Nat))
  | _, [] => .ok []
  | cs, (r, tx) :: rest => do
    let (cs', hs) ← attempts cs r tx
    let t ← loop cs' rest
    .ok (hs :: t)

/-- The list of results of decoder number `j`. -/
def column (j : Nat) (rows : List (List Nat)) : List Nat := rows.map (·.getD j 0)

/-- What a step saves. -/
structure Report where
  rawBer : ℚ
  bufferLen : Nat
  number : Nat
  info : List Nat
  parity : List Nat
  rates : List Rates

/-- A word over the binary channel: `corrupted.invert(errors[tx_idx])`, `channel(corrupted)`, simulated_data_combined_decoder.py:183-186;
`corrupted[errors[tx_idx]] = 1 - corrupted[errors[tx_idx]]` in simulate_gallager_bf.py:112-114 does the same for the different
positions drawn. -/
noncomputable def bscReception (p : ℝ) (w : List Bool × List Nat) : Except PyErr (Reception × List Bool) := do
  let rx ← invertAt w.1 w.2
  .ok (⟨channelLlr p rx, rx.map fun b => if b then 1 else 0, w.2⟩, w.1)

/-- The arithmetic in the log lines after the loop, from the number of words and the numbers of words decoded. -/
abbrev LogLines := Nat → List Nat → Except PyErr (List ℚ)

/-- No log line divides, simulate_gallager_bf.py:122-126, simluated_data_entropy_bf_decoders.py:153-165. -/
def plainLog : LogLines := fun _ _ => .ok []

/-- simulated_data_combined_decoder.py:196-205: the recovery rate of the second decoder. -/
def combinedLog : LogLines := fun n s =>
  let pure := s.getD 0 0
  let nr := s.getD 1 0
  .ok (if 0 < (n : Int) - pure then [((nr : ℚ) - pure) / ((n : ℚ) - pure)] else [])

/-- simulated_data_pretrained_model.py:136-146: the recovery rates of the second and of the third decoder. The second rate is guarded
by the number of words that the third decoder missed, but divided by the number that the first one missed. -/
def pretrainedLog : LogLines := fun n s =>
  let pure := s.getD 0 0
  let entropy := s.getD 1 0
  let pre := s.getD 2 0
  let first := if 0 < (n : Int) - pure then [((entropy : ℚ) - pure) / ((n : ℚ) - pure)] else []
  if 0 < (n : Int) - pre then
    if (n : Int) - pure = 0 then .error .zeroDivisionError
    else .ok (first ++ [((pre : ℚ) - pure) / ((n : ℚ) - pure)])
  else .ok first

/-- `np.sum(errors < encoder.k, axis=1)`, simulate_gallager_bf.py:128, simulated_data_combined_decoder.py:208. -/
def infoErrors (k : Nat) (words : List (List Bool × List Nat)) : List Nat := words.map fun w => w.2.countP (· < k)

/-- `np.sum(errors >= encoder.k, axis=1)`, simulate_gallager_bf.py:129, simulated_data_combined_decoder.py:209. -/
def parityErrors (k : Nat) (words : List (List Bool × List Nat)) : List Nat := words.map fun w => w.2.countP (k ≤ ·)

/-- `simulation_step` over the binary channel for a code of `N` bits of which `k` are information bits. Without words `np.vstack`
raises. -/
noncomputable def bscStudy (log : LogLines) (cs : List (Contender σ)) (N k : Nat) (p : ℚ) (words : List (List Bool × List Nat)) :
    Except PyErr (Report × List ℚ) :=
  match words with
  | [] => .error .valueError
  | w :: ws => do
    let received ← (w :: ws).mapM (bscReception p)
    let rows ← loop cs received
    let number := ws.length + 1
    let logged ← log number ((List.range cs.length).map fun j => (column j rows).countP (· = 0))
    .ok ({ rawBer := errorCount N p / (N : ℚ), bufferLen := w.1.length, number,
           info := infoErrors k (w :: ws), parity := parityErrors k (w :: ws),
           rates := (List.range cs.length).map fun j => ratesOf number w.1.length (column j rows) }, logged)

/-- A word over the channel with Gaussian noise, simluated_data_entropy_bf_decoders.py:131-140. -/
noncomputable def awgnReception (s : ℝ) (w : List Bool × List ℝ) : Reception × List Bool :=
  let y := Awgn.noisy s w.1 w.2
  (⟨y.map (Awgn.llr s), y, []⟩, w.1)

/-- `simulation_step` of simluated_data_entropy_bf_decoders.py:86-235. Without words `encoded[0]` raises an IndexError. -/
noncomputable def awgnStudy (cs : List (Contender σ)) (N k : Nat) (snr : ℝ) (words : List (List Bool × List ℝ)) : Except PyErr Report := do
  let s := Awgn.sigma snr
  let rows ← loop cs (words.map (awgnReception s))
  let errors := words.map (Awgn.errorRow s)
  match words with
  | [] => .error .indexError
  | w :: _ =>
    .ok { rawBer := Awgn.meanRawBer N words.length errors, bufferLen := w.1.length, number := words.length,
          info := Awgn.infoSlice k errors, parity := Awgn.paritySlice k errors,
          rates := (List.range cs.length).map fun j => ratesOf words.length w.1.length (column j rows) }

end NR.Studies

import Verif.Model.Simulation
import Verif.Model.Emle
import Verif.Model.BitOps
/-
Model of the decoding runs: the simulations of runs/HC_eilat_July_2018/simulated_data_mavlink_decoding.py:128-210 (with the same
loop and summary in simulated_data_combined_decoder.py, simulated_data_classifying_dude_decoder.py,
simulated_data_classifying_entropy_decoder.py, simulated_data_pretrained_model.py,
simulated_data_entropy_bitwise_decoder_weighted_model.py and runs/Feb_2022/simulation_rafael_code.py, for the decoders compared
there) and the recorded experiments of runs/Feb_2022/experimental_data_run.py:98-157 (likewise experimental_mavlink_based.py,
experimental_data_unified_decoder.py and the scripts of runs/Feb_2023). Decoders are parameters, rates are rational numbers;
logging, data frames and files are not modelled.
-/
namespace NR

/-- A decoder with hidden state `σ` as the scripts use it: the ratios and the true error positions in, the estimate and the success
flag out, or an exception. -/
abbrev Coder (σ : Type) := σ → List ℝ → Option (List Nat) → σ × Except PyErr (List Bool × Bool)

/-- The ratios of a received word, `channel(np.array(corrupted))`, simulated_data_mavlink_decoding.py:140, 163. -/
noncomputable def channelLlr (p : ℝ) (rx : List Bool) : List ℝ := bscLlr p (rx.map fun b => if b then 1 else 0)

/-- The loop of `simulation_step`, simulated_data_mavlink_decoding.py:159-168: the distances of both estimates to the word sent. -/
noncomputable def simLoop {σ τ : Type} (A : Coder σ) (B : Coder τ) (p : ℝ) :
    σ → τ → List (List Bool × List Nat) → Except PyErr (List (Nat × Nat))
  | _, _, [] => .ok []
  | a, b, (tx, errors) :: rest => do
    let rx ← invertAt tx errors
    let ra := A a (channelLlr p rx) (some errors)
    let estA ← ra.2
    let hA ← hammingDistance (.bits estA.1) (.bits tx)
    let rb := B b (channelLlr p rx) (some errors)
    let estB ← rb.2
    let hB ← hammingDistance (.bits estB.1) (.bits tx)
    let t ← simLoop A B p ra.1 rb.1 rest
    .ok ((hA, hB) :: t)

/-- The rates of one decoder, simulated_data_mavlink_decoding.py:207-210. -/
structure Rates where
  success : ℚ
  ber : ℚ

/-- `sum(int(res[-1] == 0) for res in …) / float(n)` and `sum(res[-1] for res in …) / float(n * len(encoded[0]))`. -/
def ratesOf (n len : Nat) (h : List Nat) : Rates := ⟨(h.countP (· = 0) : ℕ) / (n : ℚ), h.sum / ((n * len : ℕ) : ℚ)⟩

/-- What a step reports. -/
structure SimSummary where
  rawBer : ℚ
  bufferLen : Nat
  number : Nat
  pure : Rates
  rect : Rates
  /-- The recover rate in the log, simulated_data_mavlink_decoding.py:176-179. -/
  recover : ℚ

/-- `simulation_step` from the two decoders on, simulated_data_mavlink_decoding.py:149-210: `n` is the length of the code. Without
words `np.vstack` raises. -/
noncomputable def simStep {σ τ : Type} (A : Coder σ) (B : Coder τ) (a : σ) (b : τ) (n : Nat) (p : ℚ)
    (words : List (List Bool × List Nat)) : Except PyErr SimSummary :=
  match words with
  | [] => .error .valueError
  | w :: ws => do
    let h ← simLoop A B p a b (w :: ws)
    let pureOk := (h.map Prod.fst).countP (· = 0)
    let rectOk := (h.map Prod.snd).countP (· = 0)
    let number := ws.length + 1
    .ok { rawBer := errorCount n p / (n : ℚ), bufferLen := w.1.length, number,
          pure := ratesOf number w.1.length (h.map Prod.fst), rect := ratesOf number w.1.length (h.map Prod.snd),
          recover := if 0 < (number : Int) - pureOk then ((rectOk : ℚ) - pureOk) / ((number : ℚ) - pureOk) else 0 }

/-- The global `data_model` as `simulation_step` finds it, simulated_data_mavlink_decoding.py:95-96, 115-116, 142-148: assigned `None`
without clustering and the loaded model without learning. `none` stands for an unassigned name, i.e. a NameError. -/
def dataModelGlobal {α : Type} (cluster learn : Bool) (loaded : α) : Option (Option α) :=
  let bound := if cluster then none else some none
  if learn then bound else some (some loaded)

/-! ### Recorded experiments -/

/-- A recorded word: the values of the word sent, 2 everywhere when it is not known, and the received ratios. The matrices `tx` and
`rx` are assumed to have the same shape. -/
structure Recorded where
  tx : List Nat
  rx : List ℝ

/-- `tx[tx_idx, 0]`: an IndexError for rows without columns. -/
def Recorded.mark (r : Recorded) : Except PyErr Nat :=
  match r.tx with
  | [] => .error .indexError
  | x :: _ => .ok x

open Classical in
/-- The row of `errors`, experimental_data_run.py:100, 105-106: twos for an unknown word. -/
noncomputable def Recorded.errorRow (r : Recorded) (mark : Nat) : List Nat :=
  if mark < 2 then (r.tx.zip r.rx).map fun x => if x.1 ≠ (if x.2 < 0 then 1 else 0) then 1 else 0
  else List.replicate r.rx.length 2

/-- `hamming_distance(d[0], tx[tx_idx, :])` or -1, experimental_data_run.py:105-109, 113-116. -/
def Recorded.distance (r : Recorded) (mark : Nat) (est : List Bool) : Except PyErr Int :=
  if mark < 2 then (hammingDistance (.array (est.map fun b => if b then 1 else 0)) (.array (r.tx.map Int.ofNat))).map Int.ofNat
  else .ok (-1)

/-- What the loop keeps of a word: for both decoders the success flag and the distance. -/
structure ExpRow where
  mark : Nat
  errors : List Nat
  okA : Bool
  hA : Int
  okB : Bool
  hB : Int

/-- What the second decoder is told about the errors, depending on whether the word is known: nothing in experimental_data_run.py:109,
the positions of ones in the row of errors in experimental_mavlink_based.py:121, and the same for known words only in
experimental_data_unified_decoder.py:130-137. -/
abbrev Hint := Bool → List Nat → Option (List Nat)

/-- The loop, experimental_data_run.py:102-118. -/
noncomputable def expLoop {σ τ : Type} (A : Coder σ) (B : Coder τ) (hint : Hint) : σ → τ → List Recorded → Except PyErr (List ExpRow)
  | _, _, [] => .ok []
  | a, b, r :: rest => do
    let ra := A a r.rx none
    let estA ← ra.2
    let mark ← r.mark
    let errors := r.errorRow mark
    let hA ← r.distance mark estA.1
    let rb := B b r.rx (hint (decide (mark < 2)) ((List.range errors.length).filter fun i => errors.getD i 0 = 1))
    let estB ← rb.2
    let hB ← r.distance mark estB.1
    let t ← expLoop A B hint ra.1 rb.1 rest
    .ok (⟨mark, errors, estA.2, hA, estB.2, hB⟩ :: t)

/-- What is saved. -/
structure ExpSummary where
  inputBer : List ℚ
  infoErrors : List Int
  parityErrors : List Int
  successA : ℚ
  successB : ℚ
  berA : ℚ
  berB : ℚ

/-- The distances that count, `sum(res[-1] for res in … if res[-1] >= 0)`. -/
def known (l : List Int) : Int := (l.filter (0 ≤ ·)).sum

/-- The analysis, experimental_data_run.py:125-157, for words of `n` ratios and `k` information bits. `sum(…) / float(…)` raises a
ZeroDivisionError for a zero divisor. -/
def expSummary (n k : Nat) (rows : List ExpRow) : Except PyErr ExpSummary :=
  let good := rows.countP (·.mark ≠ 2)
  if rows.length = 0 ∨ n * good = 0 then .error .zeroDivisionError
  else .ok {
    inputBer := rows.map fun r => if r.mark = 2 then -1 else (r.errors.sum : ℚ) / n
    infoErrors := rows.map fun r => if r.mark = 2 then -1 else ((r.errors.take k).sum : Int)
    parityErrors := rows.map fun r => if r.mark = 2 then -1 else ((r.errors.drop k).sum : Int)
    successA := (rows.countP (·.okA) : ℕ) / (rows.length : ℚ)
    successB := (rows.countP (·.okB) : ℕ) / (rows.length : ℚ)
    berA := known (rows.map (·.hA)) / ((n * good : ℕ) : ℚ)
    berB := known (rows.map (·.hB)) / ((n * good : ℕ) : ℚ) }

/-- The whole run. -/
noncomputable def experiment {σ τ : Type} (A : Coder σ) (B : Coder τ) (hint : Hint) (a : σ) (b : τ) (n k : Nat)
    (data : List Recorded) : Except PyErr ExpSummary := do
  let rows ← expLoop A B hint a b data
  expSummary n k rows

end NR

import Mathlib.MeasureTheory.Measure.Lebesgue.Integral
import Mathlib.Analysis.SpecialFunctions.Pow.Real
import Mathlib.Analysis.SpecialFunctions.Trigonometric.Basic
import Verif.Model.DecodingRuns
/-
Model of the simulation over a channel with Gaussian noise, runs/HC_eilat_July_2018/classifying_entropy_decoder_over_awgn_channel.py
:23-32, 118-213, and of the ways in which simluated_data_entropy_bf_decoders.py and the Gaussian branch of
simulated_data_classifying_entropy_decoder.py differ from it. Samples are reals, the standard normal numbers drawn are a parameter,
decoders are parameters as in Model/DecodingRuns.lean; logging, data frames and files are not modelled.
-/
namespace NR.Awgn
open NR

/-- `awgn_llr(sigma)(y)`, classifying_entropy_decoder_over_awgn_channel.py:23-32. -/
noncomputable def llr (σ y : ℝ) : ℝ := 2 * y / σ ^ 2

/-- The option `snr_scale`. -/
inductive Scale | db | linear | other

/-- The signal to noise ratio on a linear scale, classifying_entropy_decoder_over_awgn_channel.py:130-135. -/
noncomputable def snrLinear : Scale → ℝ → Except PyErr ℝ
  | .db, s => .ok ((10 : ℝ) ^ (s / 10))
  | .linear, s => .ok s
  | .other, _ => .error .valueError

/-- `sigma = np.sqrt(noise_power/2)` with `noise_power = 1 / snr_linear`, classifying_entropy_decoder_over_awgn_channel.py:136-137. -/
noncomputable def sigma (snr : ℝ) : ℝ := √(1 / snr / 2)

/-- `scipy.special.erfc`, as the mathematical function it computes. -/
noncomputable def erfc (x : ℝ) : ℝ := 2 / √Real.pi * ∫ t in Set.Ioi x, Real.exp (-t ^ 2)

/-- The error probability the entropy decoder is told, classifying_entropy_decoder_over_awgn_channel.py:141-142. The other two
scripts use this with `delta` equal to one, simluated_data_entropy_bf_decoders.py:90, simulated_data_classifying_entropy_decoder.py:133. -/
noncomputable def bitFlip (delta snr : ℝ) : ℝ := 1 / 2 * erfc (√(delta * snr))

/-- `noisy`, classifying_entropy_decoder_over_awgn_channel.py:157-161: the baseband symbols plus `sigma` times the normal numbers. -/
noncomputable def noisy (σ : ℝ) (tx : List Bool) (noise : List ℝ) : List ℝ :=
  (tx.zip noise).map fun x => 1 - 2 * (if x.1 then 1 else 0) + σ * x.2

open Classical in
/-- `corrupted = noisy < 0`, classifying_entropy_decoder_over_awgn_channel.py:163. -/
noncomputable def corrupted (y : List ℝ) : List Bool := y.map fun v => decide (v < 0)

/-- The row of `errors`, classifying_entropy_decoder_over_awgn_channel.py:165-166. -/
noncomputable def errorRow (σ : ℝ) (w : List Bool × List ℝ) : List Bool := List.zipWith xor w.1 (corrupted (noisy σ w.1 w.2))

/-- The loop, classifying_entropy_decoder_over_awgn_channel.py:155-171. -/
noncomputable def loop {σ τ : Type} (A : Coder σ) (B : Coder τ) (s : ℝ) :
    σ → τ → List (List Bool × List ℝ) → Except PyErr (List (Nat × Nat))
  | _, _, [] => .ok []
  | a, b, (tx, noise) :: rest => do
    let channelLlr := (noisy s tx noise).map (llr s)
    let ra := A a channelLlr none
    let estA ← ra.2
    let hA ← hammingDistance (.bits estA.1) (.bits tx)
    let rb := B b channelLlr none
    let estB ← rb.2
    let hB ← hammingDistance (.bits estB.1) (.bits tx)
    let t ← loop A B s ra.1 rb.1 rest
    .ok ((hA, hB) :: t)

/-- `np.sum(errors) / encoder.n / n`, classifying_entropy_decoder_over_awgn_channel.py:187. -/
def meanRawBer (N n : Nat) (errors : List (List Bool)) : ℚ := (errors.map (·.count true)).sum / (N : ℚ) / (n : ℚ)

/-- `np.sum(errors < encoder.k, axis=1)`, classifying_entropy_decoder_over_awgn_channel.py:179: the entries of `errors` are truth
values, not positions. -/
def infoErrors (k : Nat) (errors : List (List Bool)) : List Nat := errors.map fun r => r.countP fun b => decide (b.toNat < k)

/-- `np.sum(errors >= encoder.k, axis=1)`, classifying_entropy_decoder_over_awgn_channel.py:180. -/
def parityErrors (k : Nat) (errors : List (List Bool)) : List Nat := errors.map fun r => r.countP fun b => decide (k ≤ b.toNat)

/-- `np.sum(errors[:, :encoder.k], axis=1)`, simluated_data_entropy_bf_decoders.py:168, simulated_data_classifying_entropy_decoder.py:193. -/
def infoSlice (k : Nat) (errors : List (List Bool)) : List Nat := errors.map fun r => (r.take k).count true

/-- `np.sum(errors[:, encoder.k:], axis=1)`, simluated_data_entropy_bf_decoders.py:169, simulated_data_classifying_entropy_decoder.py:194. -/
def paritySlice (k : Nat) (errors : List (List Bool)) : List Nat := errors.map fun r => (r.drop k).count true

/-- What a step reports. -/
structure Summary where
  rawBer : ℚ
  info : List Nat
  parity : List Nat
  bufferLen : Nat
  number : Nat
  ldpc : Rates
  entropy : Rates

/-- `simulation_step`, classifying_entropy_decoder_over_awgn_channel.py:118-213, for a code of `N` bits of which `k` are information
bits. `b` makes the entropy decoder for the error probability it is told. Without words `encoded[0]` raises an IndexError. -/
noncomputable def step {σ τ : Type} (A : Coder σ) (B : Coder τ) (a : σ) (b : ℝ → τ) (N k : Nat) (scale : Scale) (delta snr : ℝ)
    (words : List (List Bool × List ℝ)) : Except PyErr Summary := do
  let lin ← snrLinear scale snr
  let s := sigma lin
  let h ← loop A B s a (b (bitFlip delta lin)) words
  let errors := words.map (errorRow s)
  match words with
  | [] => .error .indexError
  | w :: _ =>
    .ok { rawBer := meanRawBer N words.length errors, info := infoErrors k errors, parity := parityErrors k errors,
          bufferLen := w.1.length, number := words.length,
          ldpc := ratesOf words.length w.1.length (h.map Prod.fst), entropy := ratesOf words.length w.1.length (h.map Prod.snd) }

end NR.Awgn

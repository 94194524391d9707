import Verif.Model.Studies
import Mathlib.Algebra.Order.Floor.Semiring
/-
Model of `Pool.map(simulation_step, points)`, as in runs/HC_eilat_July_2018/simluated_data_entropy_bf_decoders.py:281-282,
classifying_entropy_decoder_over_awgn_channel.py:266-267, simulated_data_combined_decoder.py:304-305 and scripts/classifier_analysis.py
:382-383, and of what a step of simluated_data_entropy_bf_decoders.py keeps in the globals of its process. Not modelled: chunks (any
assignment of the points to the processes is allowed), and runs in which a step raises.
-/
namespace NR.Pool
open NR NR.Studies

variable {G P R σ : Type}

/-- `Pool.map(step, points)`: every process has its own copy of the globals, `g w` for process `w`. Point number `i` is handled by process
`worker i`, and every process handles its points in their order, since they are taken from one queue. The results are returned in
the order of the points. -/
def mapLoop (step : G → P → G × R) (worker : Nat → Nat) : (Nat → G) → Nat → List P → List R
  | _, _, [] => []
  | g, i, p :: ps =>
    let w := worker i
    let o := step (g w) p
    o.2 :: mapLoop step worker (Function.update g w o.1) (i + 1) ps

/-- The call. -/
def poolMap (step : G → P → G × R) (worker : Nat → Nat) (init : Nat → G) (points : List P) : List R := mapLoop step worker init 0 points

/-- The globals that a step of simluated_data_entropy_bf_decoders.py changes: the iteration limit and the random generator, of which only
the number of normal numbers drawn so far matters, simluated_data_entropy_bf_decoders.py:96, 134. -/
structure Globals where
  iterations : Nat
  drawn : Nat

/-- `int(3*p*nn)`, simluated_data_entropy_bf_decoders.py:90, 96. -/
noncomputable def need (N : Nat) (snr : ℝ) : Nat := ⌊3 * Awgn.bitFlip 1 snr * N⌋₊

/-- The normal numbers of a step, `rng.normal(size=len(baseband))` for every word in turn, simluated_data_entropy_bf_decoders.py:130-134:
`normal` is the sequence of the generator, `start` the number of numbers drawn before. -/
def noiseRows (normal : Nat → ℝ) (N start : Nat) (tx : List (List Bool)) : List (List Bool × List ℝ) :=
  tx.mapIdx fun i w => (w, (List.range N).map fun b => normal (start + i * N + b))

/-- What a step returns: `max_ldpc_iterations` and the rest. -/
structure Outcome where
  iterations : Nat
  report : Except PyErr Report

/-- `simulation_step`, simluated_data_entropy_bf_decoders.py:75-235, with the globals of the process. `make` builds the decoders for an
iteration limit and an error probability. -/
noncomputable def bfStep (normal : Nat → ℝ) (make : Nat → ℝ → List (Contender σ)) (N k : Nat) (tx : List (List Bool)) (g : Globals)
    (snr : ℝ) : Globals × Outcome :=
  let iterations := max (need N snr) g.iterations
  (⟨iterations, g.drawn + tx.length * N⟩,
   ⟨iterations, awgnStudy (make iterations (Awgn.bitFlip 1 snr)) N k snr (noiseRows normal N g.drawn tx)⟩)

end NR.Pool

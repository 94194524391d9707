import Verif.Model.DecodingRuns
/-
Model of runs/HC_eilat_July_2018/simulated_data_entropy_bitwise_decoder_weighted_model_averaged.py, and of the success counts of the
earlier scripts simulated_data_entropy_bitwise_decoder_script.py and ..._script_mp.py. Draws are arguments; worker processes are
forked, so that they share the globals; files, figures and printing are not modelled. The call of `segment_buffer` on the estimate of
the first decoder, of which only the number of messages is kept, is part of that decoder.
-/
namespace NR.Averaged
open NR

/-- `np.linspace(args.minflip, args.maxflip, num=args.nflips)`, averaged.py:57, for `num ≥ 0`. -/
def linspace (a b : ℚ) (num : Nat) : List ℚ :=
  (List.range num).map fun (i : Nat) => if num = 1 then a else a + (i : ℚ) * ((b - a) / ((num : ℚ) - 1))

/-- What the module computes before the workers start. -/
structure Globals where
  n : Nat
  encoded : List (List Bool)
  bitFlipP : List ℚ
  errorIdx : List (List Nat)

/-- averaged.py:57-81: `draw i m` are the positions drawn for word `i` when `m` are asked for. An empty list of probabilities has no
last entry, an empty list of data no first one (:68), and `choice` without replacement not more than `n` positions. -/
def globals (n : Nat) (encoded : List (List Bool)) (minflip maxflip : ℚ) (nflips : Nat) (draw : Nat → Nat → List Nat) :
    Except PyErr Globals :=
  let ps := linspace minflip maxflip nflips
  if encoded.length = 0 then .error .indexError
  else match ps.getLast? with
  | none => .error .indexError
  | some p =>
    if n < errorCount n p then .error .valueError
    else .ok ⟨n, encoded, ps, (List.range encoded.length).map fun i => draw i (errorCount n p)⟩

/-- What `summary` keeps of a step. -/
structure Point where
  rawBer : ℚ
  ldpc : Rates
  entropy : Rates

/-- `simulation_step`, averaged.py:116-183: `errors = error_idx[:, :no_errors]`, fresh decoders, then the loop and the rates of the
other simulations. -/
noncomputable def step {σ τ : Type} (A : Coder σ) (B : Coder τ) (a : σ) (b : τ) (g : Globals) (p : ℚ) : Except PyErr Point := do
  let r ← simStep A B a b g.n p (g.encoded.zip (g.errorIdx.map fun row => row.take (errorCount g.n p)))
  .ok ⟨r.rawBer, r.pure, r.rect⟩

/-- The main part, averaged.py:187-231: the `overall_stats` saved at the end, under a name with the `timestamp` of the last run. -/
noncomputable def main {σ τ : Type} (A : Coder σ) (B : Coder τ) (a : σ) (b : τ) (g : Globals) (averaging : Nat) :
    Except PyErr (List (List Point)) := do
  let stats ← (List.range averaging).mapM fun _ => g.bitFlipP.mapM (step A B a b g)
  if averaging = 0 then .error .nameError else .ok stats

/-- An entry of the tuples kept per word: a number, or an array of numbers. -/
inductive Entry where
  | num (x : Int)
  | arr (l : List Int)

/-- `int(entry == 0)`: an array that has not exactly one element cannot be converted. -/
def Entry.isZero : Entry → Except PyErr Nat
  | .num x => .ok (if x = 0 then 1 else 0)
  | .arr [x] => .ok (if x = 0 then 1 else 0)
  | .arr _ => .error .typeError

/-- `sum(int(res[i] == 0) for res in decoded)`, script.py:125, 133 and script_mp.py:127, 135 with `i = 5`; averaged.py:153, 160 with
`i = 7`. -/
def successes (i : Nat) (decoded : List (List Entry)) : Except PyErr Nat := do
  let l ← decoded.mapM fun res => match res[i]? with
    | none => .error .indexError
    | some e => e.isZero
  .ok l.sum

/-- What is kept of a word: `(*d, len(s), hamming_distance(...))`, script.py:113, script_mp.py:121, averaged.py:149. -/
def keep (d : List Entry) (messages hamming : Nat) : List Entry := d ++ [.num messages, .num hamming]

end NR.Averaged

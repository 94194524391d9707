import Verif.Model.Float64
/-
The points of a simulation in 64-bit floats: `bit_flip_p = np.linspace(args.minflip, args.maxflip, num=args.nflips)` and
`no_errors = int(encoder.n * p)`, runs/HC_eilat_July_2018/simulated_data_entropy_bitwise_decoder_weighted_model_averaged.py:57,
132 and the same two lines in the other simulation scripts. NumPy is not part of the repository; what is modelled is its
`linspace` with every operation rounded to a nearest double.
-/
namespace NR.FlipCount
open NR

open Classical in
/-- `np.linspace(a, b, num)` for `num ≥ 0`: `delta = b - a`, `step = delta / (num - 1)`, entry `i` is `i * step + a`, computed as
`i / (num - 1) * delta + a` if the step is 0, and the last of two or more entries is replaced by `b`. -/
noncomputable def linspaceF (rnd : ℝ → ℝ) (a b : ℝ) (num : Nat) : List ℝ :=
  let div := num - 1
  let delta := rnd (b - a)
  let step := rnd (delta / div)
  let y : List ℝ := (List.range num).map fun (i : Nat) =>
    if div = 0 then rnd (i * delta)
    else if step = 0 then rnd (rnd ((i : ℝ) / div) * delta)
    else rnd (i * step)
  let y := y.map fun x => rnd (x + a)
  if 1 < num then y.set div b else y

/-- `int(n * p)` for a double `p ≥ 0`. -/
noncomputable def errorCountF (rnd : ℝ → ℝ) (n : Nat) (p : ℝ) : Nat := ⌊rnd (n * p)⌋.toNat

end NR.FlipCount

import Verif.Model.Num2Bits
import Verif.Spec.MsgEq
import Verif.Spec.Gauss
/-
The statistics of a field as the machine computes them: `norm.fit` of SciPy on 64-bit floats, which FieldModel calls in
inference/statistical_models.py:74-77. SciPy and NumPy are not part of the repository; what is modelled is `data.mean()` and
`sqrt(((data - loc)**2).mean())` with every operation rounded to the nearest double. The order of the additions is left open.
-/
namespace NR
open Spec

/-- The doubles: integers below 2^53 times a power of two between 2^-1074 and 2^971. -/
def IsDouble (x : ℝ) : Prop := ∃ k e : ℤ, |k| < 2 ^ 53 ∧ -1074 ≤ e ∧ e ≤ 971 ∧ x = k * (2 : ℝ) ^ e

/-- Rounding to a nearest double, ties either way. Simplified: numbers beyond the largest double are rounded to it, not to an
infinity. -/
structure Rounding (rnd : ℝ → ℝ) : Prop where
  double : ∀ x, IsDouble (rnd x)
  nearest : ∀ x y, IsDouble y → |rnd x - x| ≤ |y - x|

/-- An order in which the entries of an array are added; the leaves are positions in the array. -/
inductive SumTree where
  | leaf (i : Nat)
  | node (l r : SumTree)

/-- The positions added. -/
def SumTree.leaves : SumTree → List Nat
  | .leaf i => [i]
  | .node l r => l.leaves ++ r.leaves

/-- The sum, each addition rounded. -/
noncomputable def SumTree.sum (rnd : ℝ → ℝ) (xs : List ℝ) : SumTree → ℝ
  | .leaf i => xs.getD i 0
  | .node l r => rnd (l.sum rnd xs + r.sum rnd xs)

/-- The machine: how it rounds, in which order it adds arrays of each length, and what `struct.pack('<f', x)` makes of a
number. -/
structure Machine where
  rnd : ℝ → ℝ
  order : Nat → SumTree
  toF32 : NumArg → Except PyErr (BitVec 32)

/-- What is assumed of it: it rounds to the nearest double, adds every entry once, packs a number of single precision other
than zero as the pattern that stands for it, and packs every number not beyond the largest one of single precision. -/
structure Machine.Ok (M : Machine) : Prop where
  rounds : Rounding M.rnd
  all : ∀ n, 0 < n → (M.order n).leaves.Perm (List.range n)
  single : ∀ b u, f32Value b = .fin u → u ≠ 0 → M.toF32 (.num (u / 2 ^ 149)) = .ok b
  packs : ∀ q : ℚ, |q| ≤ (2 ^ 24 - 1) * 2 ^ 104 → ∃ b, M.toF32 (.num q) = .ok b

/-- `data.mean()`. -/
noncomputable def Machine.mean (M : Machine) (xs : List ℝ) : ℝ := M.rnd ((M.order xs.length).sum M.rnd xs / xs.length)

/-- `np.sqrt(((data - loc)**2).mean())`. -/
noncomputable def Machine.std (M : Machine) (xs : List ℝ) : ℝ :=
  M.rnd √(M.mean (xs.map fun x => M.rnd (M.rnd (x - M.mean xs) * M.rnd (x - M.mean xs))))

/-- A sample as a number; none for NaN, infinities and bytes. Single precision values are multiples of 2^-149. -/
def numValue : Val → Option ℚ
  | .int i => some i
  | .flt b => match f32Value b with
    | .fin u => some (u / 2 ^ 149)
    | _ => none
  | .raw _ => none

/-- The sample is of type `bytes`. -/
def isBytes : Val → Bool
  | .raw _ => true
  | _ => false

/-- `norm.fit(samples)`, statistical_models.py:76, for a list that is not empty: the samples become doubles; a ValueError if
one is not finite, a TypeError for bytes. -/
noncomputable def Machine.fit (M : Machine) (l : List Val) : Except PyErr (ℝ × ℝ) :=
  if l.any isBytes then .error .typeError
  else match l.mapM numValue with
    | none => .error .valueError
    | some qs =>
      let xs := qs.map fun q : ℚ => M.rnd q
      .ok (M.mean xs, M.std xs)

open Classical in
/-- The operations of FieldModel on this machine: `norm.fit`, the comparison `value == self._mean` (the value becomes a double
too), and the mean stored by `num2bits`. Simplified: the score and the densities of fields that vary are those over the reals. -/
noncomputable def Machine.ops (M : Machine) : StatOps Val ℝ where
  zero := 0
  one := 1
  fit := M.fit
  nonPos := fun s => decide (s ≤ 0)
  eqMean := fun x m => match numValue x with
    | some q => decide (M.rnd q = m)
    | none => false
  score := fun m s x => 1 - erf (|m - ((numValue x).getD 0 : ℚ)| / s / √2)
  pdf := fun m s x => Real.exp (-((((numValue x).getD 0 : ℚ) - m) / s) ^ 2 / 2) / (s * √(2 * Real.pi))
  cdf := fun m s x => (1 + erf ((((numValue x).getD 0 : ℚ) - m) / s / √2)) / 2
  toBits := fun x t => if h : ∃ q : ℚ, (q : ℝ) = x then num2bits M.toF32 (.num h.choose) t.cname else .error .valueError

end NR

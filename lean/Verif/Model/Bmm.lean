import Verif.Model.Py
import Mathlib.Analysis.SpecialFunctions.Log.Basic
import Mathlib.Algebra.BigOperators.Fin
/-
Model of inference/bmm.py. Arrays are functions on finite index types, numbers are reals (rounding is not modelled).
NumPy's log of 0 is minus infinity, here it is 0; C51 shows that no mixing weight is ever 0.
-/
namespace NR
open Finset

/-- `self.pi` and `self.mu` of a BMM with `K` components on `D` features. -/
structure Bmm (K D : Nat) where
  pi : Fin K → ℝ
  mu : Fin K → Fin D → ℝ

variable {K D N : Nat}

/-- `mu_place` of bmm.py:74-75. -/
noncomputable def muPlace (mu : Fin K → Fin D → ℝ) (k : Fin K) (d : Fin D) : ℝ :=
  open Classical in
  let a := if ∀ j, mu j d ≤ 1e-15 then (1e-15 : ℝ) else mu k d
  if |a| < 1e-200 then 1e-200 else a

/-- `get_save_single`, bmm.py:73-76. -/
noncomputable def saveSingle (x : Fin N → Fin D → ℝ) (mu : Fin K → Fin D → ℝ) (i : Fin N) (k : Fin K) : ℝ :=
  ∑ d, x i d * Real.log (muPlace mu k d)

/-- `get_log_bernoullis`, bmm.py:68-71. -/
noncomputable def Bmm.logBern (p : Bmm K D) (x : Fin N → Fin D → ℝ) (i : Fin N) (k : Fin K) : ℝ :=
  saveSingle x p.mu i k + saveSingle (fun i d => 1 - x i d) (fun k d => 1 - p.mu k d) i k

/-- `get_sample_log_likelihood`, bmm.py:92-93, and `score_samples`, bmm.py:102-104 (also `Z` of `get_responsibilities`, bmm.py:63). -/
noncomputable def Bmm.sampleLogL (p : Bmm K D) (x : Fin N → Fin D → ℝ) (i : Fin N) : ℝ :=
  Real.log (∑ k, Real.exp (Real.log (p.pi k) + p.logBern x i k))

/-- `get_responsibilities`, bmm.py:61-66. -/
noncomputable def Bmm.gamma (p : Bmm K D) (x : Fin N → Fin D → ℝ) (i : Fin N) (k : Fin K) : ℝ :=
  Real.exp (Real.log (p.pi k) + p.logBern x i k - p.sampleLogL x i)

/-- `get_log_likelihood`, bmm.py:95-96, and `score`, bmm.py:98-100. -/
noncomputable def Bmm.logL (p : Bmm K D) (x : Fin N → Fin D → ℝ) : ℝ := (∑ i, p.sampleLogL x i) / N

/-- `get_Neff`, bmm.py:78-79. -/
noncomputable def neff (g : Fin N → Fin K → ℝ) (k : Fin K) : ℝ := ∑ i, g i k

/-- `get_mu` and `get_pi`, bmm.py:81-85, from responsibilities. -/
noncomputable def mStep (g : Fin N → Fin K → ℝ) (x : Fin N → Fin D → ℝ) : Bmm K D :=
  { mu := fun k d => (∑ i, g i k * x i d) / neff g k, pi := fun k => neff g k / N }

/-- `init_params` and `normalize_mu`, bmm.py:48-59, where `u` is the random matrix. -/
noncomputable def Bmm.init (u : Fin K → Fin D → ℝ) : Bmm K D :=
  { pi := fun _ => 1 / K * 1, mu := fun k d => u k d / ∑ e, u k e }

/-- The loop of `fit`, bmm.py:17-33, for the remaining number of iterations: the parameters at the end. The likelihood
is NaN when a division of the M-step has a zero divisor; then the parameters before the step, kept by `remember_params`
(bmm.py:43-46), are restored by `reset_params` (bmm.py:35-41) and the loop ends. -/
noncomputable def fitLoop (x : Fin N → Fin D → ℝ) : Nat → Bmm K D → Bmm K D
  | 0, p => p
  | n + 1, p =>
    open Classical in
    let g := p.gamma x
    if N = 0 ∨ ∃ k, neff g k = 0 then p else fitLoop x n (mStep g x)

/-- `fit`, bmm.py:12-33. -/
noncomputable def Bmm.fit (u : Fin K → Fin D → ℝ) (maxIter : Nat) (x : Fin N → Fin D → ℝ) : Bmm K D :=
  fitLoop x maxIter (Bmm.init u)

/-- `np.argmax` of a non-empty vector, as the running best over the rest. -/
noncomputable def argmaxFrom (best : ℝ) (bi : Nat) : Nat → List ℝ → Nat
  | _, [] => bi
  | i, y :: ys => open Classical in if best < y then argmaxFrom y i (i + 1) ys else argmaxFrom best bi (i + 1) ys

/-- `np.argmax`; a ValueError for an empty vector. -/
noncomputable def npArgmax : List ℝ → Except PyErr Nat
  | [] => .error .valueError
  | y :: ys => .ok (argmaxFrom y 0 1 ys)

/-- `predict`, bmm.py:87-90, one row. -/
noncomputable def Bmm.predictRow (p : Bmm K D) (x : Fin N → Fin D → ℝ) (i : Fin N) : Except PyErr Nat :=
  npArgmax (List.ofFn (p.gamma x i))

end NR

import Verif.Model.FieldModel
import Verif.Spec.Gauss
import Mathlib.Analysis.SpecialFunctions.Log.Base
/-
The three methods of `FieldModel` about single bits, inference/statistical_models.py:98-122. Numbers are reals; NaN is a
separate value. `_mean` and `_std` are Python integers until the first fit and NumPy doubles afterwards, which matters when
they are divided by: an integer 0 raises, a double 0 gives an infinity or NaN.
-/
namespace NR.FieldModel
open Spec Real
variable {σ : Type} (O : StatOps σ ℝ)

/-- `norm.cdf(x)` of SciPy: the standard normal distribution function. -/
noncomputable def normCdf (x : ℝ) : ℝ := (1 + erf (x / √2)) / 2

/-- `1 - norm.cdf(-abs(mean) / std)` with doubles, statistical_models.py:106-108; none is NaN. With a deviation of 0 the
quotient is NaN for mean 0 and minus infinity otherwise, where the distribution function is 0. -/
noncomputable def signP (mean std : ℝ) : Option ℝ :=
  if std = 0 then (if mean = 0 then none else some (1 - 0))
  else some (1 - normCdf (-|mean| / std))

/-- `p_of_sign_bit`, statistical_models.py:98-108. -/
noncomputable def pOfSignBit (m : FieldModel σ ℝ) : FieldModel σ ℝ × Except PyErr (Option ℝ) :=
  if m.fieldType.signed = false then (m, .ok (some 1))
  else match m.refresh O with
    | (m', .error e) => (m', .error e)
    | (m', .ok ()) =>
      (m', if m'.up2date then .ok (signP m'.mean m'.std) else .error .zeroDivisionError)

/-- `int(np.ceil(np.log2(1 / (num_std * std))))` with a double `std`, statistical_models.py:122: `int` of an infinity is an
OverflowError, `int` of NaN, the logarithm of a negative number or of minus infinity, a ValueError. Simplified: `num_std` is
not minus zero. -/
noncomputable def sigBits (numStd std : ℝ) : Except PyErr Int :=
  if numStd < 0 then .error .valueError
  else if numStd * std = 0 then .error .overflowError
  else .ok ⌈logb 2 (1 / (numStd * std))⌉

/-- `std_significant_bits`, statistical_models.py:117-122. -/
noncomputable def stdSignificantBits (m : FieldModel σ ℝ) (numStd : ℝ) : FieldModel σ ℝ × Except PyErr Int :=
  match m.refresh O with
  | (m', .error e) => (m', .error e)
  | (m', .ok ()) => (m', if m'.up2date then sigBits numStd m'.std else .error .zeroDivisionError)

/-- `bitwise_classify_value`, statistical_models.py:110-115: the value is not used. -/
def bitwiseClassifyValue (m : FieldModel σ ℝ) (_value : σ) : FieldModel σ ℝ × Except PyErr (List ℝ) :=
  match m.refresh O with
  | (m', .error e) => (m', .error e)
  | (m', .ok ()) => (m', .ok [0])

end NR.FieldModel

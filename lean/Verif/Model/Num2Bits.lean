import Verif.Model.FieldModel
import Mathlib.Data.Rat.Floor
/-
Model of `num2bits`, inference/statistical_models.py:14-26.
-/
namespace NR

/-- The argument `num`: a finite number (a rational), an infinity, a NaN, or a string. -/
inductive NumArg where
  | num (q : ℚ)
  | inf (neg : Bool)
  | nan
  | str (s : String)

/-- Python's `round(x)` on a finite number: to the nearest integer, ties to the even one. -/
def roundHalfEven (q : ℚ) : Int :=
  let f := ⌊q⌋
  if q - f < 1 / 2 then f
  else if 1 / 2 < q - f then f + 1
  else if f % 2 = 0 then f else f + 1

/-- `int(round(num))`. -/
def pyRound : NumArg → Except PyErr Int
  | .num q => .ok (roundHalfEven q)
  | .inf _ => .error .overflowError
  | .nan => .error .valueError
  | .str _ => .error .typeError

/-- `num >= 0`: `none` is a TypeError. -/
def nonNeg : NumArg → Option Bool
  | .num q => some (decide (0 ≤ q))
  | .inf neg => some (!neg)
  | .nan => some false
  | .str _ => none

/-- `sub in s` for strings. -/
def hasSub (sub s : String) : Bool := s.toList.tails.any fun t => sub.toList.isPrefixOf t

/-- What is handed to `struct.pack`: an integer, a number to be rounded to single precision, or a string. -/
inductive Cast where
  | int (i : Int)
  | flt (x : NumArg)

/-- The cast, statistical_models.py:16-23. -/
def castNum (num : NumArg) (fieldType : String) : Except PyErr Cast :=
  if fieldType = "char" then
    match num with
    | .str s => if s.length = 1 then .ok (.int (s.toList.headD ' ').toNat) else .error .typeError
    | _ => .error .typeError
  else if hasSub "uint" fieldType then
    match nonNeg num with
    | none => .error .typeError
    | some true => (pyRound num).map .int
    | some false => .ok (.int 0)
  else if hasSub "int" fieldType then (pyRound num).map .int
  else if fieldType ≠ "float" then .error .valueError
  else .ok (.flt num)

/-- `num2bits`, statistical_models.py:14-26. `toF32` is what `struct.pack('<f', x)` makes of a number: the bit pattern
of the nearest single precision float, or an OverflowError. -/
def num2bits (toF32 : NumArg → Except PyErr (BitVec 32)) (num : NumArg) (fieldType : String) :
    Except PyErr (List Bool) := do
  let c ← castNum num fieldType
  match typeOfName fieldType with
  | none => .error .keyError
  | some t =>
    match c with
    | .int i => (packScalar t (.int i)).map bytesBits
    | .flt (.str _) => .error .structError
    | .flt x => do
      let b ← toF32 x
      (packScalar t (.flt b)).map bytesBits

end NR

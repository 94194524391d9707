import Verif.Model.Segmentation
/-
Model of `format_attr`, `__eq__`, `__ne__` and `to_dict` of `MAVLink_message`, mavlink_utils/HC_dialect.py:120-125, 173-207.

Simplifications: array attributes are lists in both operands (a tuple is never equal to a list); the compared messages
share no attribute object (a list comparison treats identical NaN objects as equal); a float attribute holds a
single-precision value, as everywhere in the model.
-/
namespace NR
open Dialect

/-- A message object as `__eq__` and `to_dict` see it: its class, the header fields set by `pack` or `decode` and its
attributes in the order of `fieldnames`. -/
structure MsgObj where
  cls : MsgClass
  seq : Nat
  srcSystem : Nat
  srcComponent : Nat
  fields : List FieldVal
  deriving DecidableEq, Repr

/-- The object returned by `decode`. -/
def MavMsg.obj (m : MavMsg) : MsgObj := ⟨m.cls, m.seq, m.srcSystem, m.srcComponent, m.fields⟩

/-- `str.rstrip("\00")`. -/
def rstripNul (s : List Byte) : List Byte := (s.reverse.dropWhile (· = 0)).reverse

/-- `format_attr`, HC_dialect.py:120-125: `bytes` become text without trailing NULs, everything else is unchanged. -/
def attrShown : FieldVal → FieldVal
  | .num (.raw bs) => .text (rstripNul (toStringPy (.num (.raw bs))))
  | v => v

/-- Is the single-precision pattern a NaN? -/
def f32IsNaN (b : BitVec 32) : Bool :=
  decide (b.toNat / 2 ^ 23 % 256 = 255) && decide (b.toNat % 2 ^ 23 ≠ 0)

/-- Is the single-precision pattern a zero (of either sign)? -/
def f32IsZero (b : BitVec 32) : Bool := decide (b.toNat % 2 ^ 31 = 0)

/-- `==` of Python values: floats compare as in IEEE 754 (NaN is unequal to everything, the zeros are equal). An int and a
float are never compared: both operands belong to one field. -/
def valEq : Val → Val → Bool
  | .int a, .int b => decide (a = b)
  | .flt a, .flt b => !f32IsNaN a && !f32IsNaN b && (decide (a = b) || (f32IsZero a && f32IsZero b))
  | .raw a, .raw b => decide (a = b)
  | _, _ => false

/-- `==` of lists: same length and equal elements. -/
def listEq : List Val → List Val → Bool
  | [], [] => true
  | a :: as, b :: bs => valEq a b && listEq as bs
  | _, _ => false

/-- `==` of attribute values. -/
def attrEq : FieldVal → FieldVal → Bool
  | .num a, .num b => valEq a b
  | .arr a, .arr b => listEq a b
  | .text a, .text b => decide (a = b)
  | _, _ => false

/-- `getattr` of a field: the attribute with that name. -/
def MsgObj.attr (m : MsgObj) (name : String) : Option FieldVal := (m.cls.fieldnames.zip m.fields).lookup name

/-- The loop of `__eq__`, HC_dialect.py:196-198. -/
def attrsEq (a b : MsgObj) : List String → Except PyErr Bool
  | [] => .ok true
  | n :: ns =>
    match a.attr n, b.attr n with
    | some x, some y => if attrEq (attrShown x) (attrShown y) then attrsEq a b ns else .ok false
    | _, _ => .error .attributeError

/-- `__eq__`, HC_dialect.py:176-200 (`other` is a message or None). -/
def msgEq (a : MsgObj) (other : Option MsgObj) : Except PyErr Bool :=
  match other with
  | none => .ok false
  | some b =>
    if a.cls.name ≠ b.cls.name then .ok false
    else if a.seq ≠ b.seq then .ok false
    else if a.srcSystem ≠ b.srcSystem then .ok false
    else if a.srcComponent ≠ b.srcComponent then .ok false
    else attrsEq a b a.cls.fieldnames

/-- `__ne__`, HC_dialect.py:173-174. -/
def msgNe (a : MsgObj) (other : Option MsgObj) : Except PyErr Bool := (msgEq a other).map (!·)

/-- A value of the dict returned by `to_dict`. -/
inductive DictVal where
  | str (s : String)
  | attr (v : FieldVal)
  deriving DecidableEq, Repr

/-- Loop body of `to_dict`, HC_dialect.py:205-206. -/
def toDictStep (m : MsgObj) (d : List (String × DictVal)) (a : String) : Except PyErr (List (String × DictVal)) :=
  match m.attr a with
  | none => .error .attributeError
  | some v => .ok (dictSet d a (.attr (attrShown v)))

/-- `to_dict`, HC_dialect.py:202-207. -/
def toDict (m : MsgObj) : Except PyErr (List (String × DictVal)) :=
  m.cls.fieldnames.foldlM (toDictStep m) [("mavpackettype", .str m.cls.name)]

end NR

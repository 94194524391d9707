import Verif.Model.MsgEq
import Mathlib.Data.List.Forall2
/-
Specification vocabulary for the comparison of messages: what number a single-precision pattern stands for, what text a
character field shows, and when two attribute values are the same.
-/
namespace NR.Spec
open NR

/-- The number a 32-bit pattern stands for in IEEE 754 single precision; finite numbers in units of `2 ^ -149`, the
smallest positive one. -/
inductive F32 where
  | nan
  | inf (negative : Bool)
  | fin (units : Int)
  deriving DecidableEq, Repr

/-- Value of a pattern: sign bit, 8 exponent bits, 23 fraction bits. -/
def f32Value (b : BitVec 32) : F32 :=
  let sign : Int := if b.toNat / 2 ^ 31 = 1 then -1 else 1
  let e : Nat := b.toNat / 2 ^ 23 % 256
  let m : Nat := b.toNat % 2 ^ 23
  if e = 255 then (if m = 0 then .inf (b.toNat / 2 ^ 31 = 1) else .nan)
  else if e = 0 then .fin (sign * m)
  else .fin (sign * ((2 ^ 23 + m) * 2 ^ (e - 1) : Nat))

/-- Equality of numbers; NaN is not equal to itself. -/
def SameNumber : Val → Val → Prop
  | .int a, .int b => a = b
  | .flt a, .flt b => f32Value a ≠ .nan ∧ f32Value a = f32Value b
  | .raw a, .raw b => a = b
  | _, _ => False

/-- A byte string without its trailing NULs. -/
def stripNuls : List Byte → List Byte
  | [] => []
  | b :: r => if b = 0 ∧ ∀ c ∈ r, c = 0 then [] else b :: stripNuls r

/-- The text an attribute shows, if it is text: a `str` itself; `bytes` decoded (`_XXX` if not UTF-8) without trailing
NULs. -/
def shownText : FieldVal → Option (List Byte)
  | .text t => some t
  | .num (.raw bs) => some (stripNuls (if utf8Valid bs then bs else xxxText))
  | _ => none

/-- Two attribute values are the same: same text shown, same number, or arrays of the same numbers. -/
def SameAttr (x y : FieldVal) : Prop :=
  match shownText x, shownText y with
  | some s, some t => s = t
  | none, none =>
    match x, y with
    | .num a, .num b => SameNumber a b
    | .arr as, .arr bs => List.Forall₂ SameNumber as bs
    | _, _ => False
  | _, _ => False

/-- The value is not a NaN. -/
def NotNaN : Val → Prop
  | .flt b => f32Value b ≠ .nan
  | _ => True

/-- No number of the attribute is a NaN. -/
def NaNFree : FieldVal → Prop
  | .num v => NotNaN v
  | .arr vs => ∀ v ∈ vs, NotNaN v
  | .text _ => True

/-- A message object of the dialect with all its attributes. -/
def Complete (m : MsgObj) : Prop := m.cls ∈ Dialect.mavlinkMap ∧ m.fields.length = m.cls.fieldnames.length

/-- Same class, sequence number, system, component and attribute values. -/
def SameMsg (a b : MsgObj) : Prop :=
  a.cls = b.cls ∧ a.seq = b.seq ∧ a.srcSystem = b.srcSystem ∧ a.srcComponent = b.srcComponent ∧
    List.Forall₂ SameAttr a.fields b.fields

/-- A character field that survives the wire: at most `n` bytes, with NULs only at the end. -/
def PlainText (n : Nat) : FieldVal → Prop
  | .num (.raw bs) => bs.length ≤ n ∧ ∃ t k, bs = t ++ List.replicate k 0 ∧ (0 : Byte) ∉ t
  | _ => True

/-- An attribute as `to_dict` shows it. -/
def shownAttr (v : FieldVal) : FieldVal :=
  match shownText v with
  | some t => .text t
  | none => v

end NR.Spec

import Verif.Model.FebReader
/-
Specification for the recordings of February 2022.
-/
namespace NR.Spec
open NR

/-- The positions where both words have a one. -/
def commonOnes (a b : List Bool) : Nat := (List.zipWith (fun x y => x && y) a b).count true

/-- The positions where the words differ. -/
def bitsApart (a b : List Bool) : Nat := (List.zipWith (fun x y => x != y) a b).count true

/-- The receptions used on a day, before sorting. -/
def usedRx (day : Feb.Day) (L : Nat) (ship : List Feb.Record) : List Feb.Record :=
  match day with
  | .feb14 => Feb.chooseRx14 L ship
  | .feb16 => Feb.chooseRx16 L ship

/-- The words sent, in the order of time. -/
noncomputable def sentWords (L : Nat) (hc : List Feb.Record) : List (List Bool) :=
  (Feb.sortTime (Feb.chooseTx L hc)).map (·.coded)

/-- A reception whose word comes from decoding: its own or, on the 16th, that of a copy received at the same time with a positive
error rate. -/
def Decoded (day : Feb.Day) (used : List Feb.Record) (x : Feb.Record) : Prop :=
  x.rawBer ≠ -1 ∨ (day = .feb16 ∧ ∃ y ∈ used, y.time = x.time ∧ y.rawBer > 0)

end NR.Spec

import Verif.Spec.Dude
import Verif.Spec.Bits
import Verif.Spec.Denoisers
/-
Signals with isolated errors, for C146.
-/
namespace NR.C146
open NR.Spec

/-- In how many of the `k` symbols before and `k` symbols after them two positions of a signal differ. -/
def distance (s : List Int) (k i j : Nat) : Nat := diffCount (before s k i ++ after s k i) (before s k j ++ after s k j)

/-- A signal in which surroundings tell the symbol, also if two of them are read wrongly. -/
def Telling (s : List Int) (k : Nat) : Prop :=
  ∀ i j, k ≤ i → i + k < s.length → k ≤ j → j + k < s.length → distance s k i j ≤ 2 → distance s k i j = 0 ∧ s[i]? = s[j]?

/-- The same for the `k` symbols before a position. -/
def Foretelling (s : List Int) (k : Nat) : Prop :=
  ∀ i j, k ≤ i → i < s.length → k ≤ j → j < s.length → diffCount (before s k i) (before s k j) ≤ 2 →
    before s k i = before s k j ∧ s[i]? = s[j]?

/-- Any two positions where the received symbol is wrong are more than `gap` apart. -/
def Isolated (s r : List Int) (gap : Nat) : Prop := ∀ i j, i < j → r[i]? ≠ s[i]? → r[j]? ≠ s[j]? → gap < j - i

/-- How many symbols between the same surroundings as position `i` were received wrongly. -/
def mistakes (s r : List Int) (k i : Nat) : Nat :=
  (List.range s.length).countP fun j => decide (k ≤ j ∧ j + k < s.length ∧ before s k j = before s k i ∧ after s k j = after s k i ∧
    r[j]? ≠ s[j]?)

/-- How many symbols between the same surroundings as position `i` were received correctly, together with their surroundings. -/
def intact (s r : List Int) (k i : Nat) : Nat :=
  (List.range s.length).countP fun j => decide (k ≤ j ∧ j + k < s.length ∧ before s k j = before s k i ∧ after s k j = after s k i ∧
    before r k j = before s k j ∧ after r k j = after s k j ∧ r[j]? = s[j]?)

/-- Up to position `i`, how many symbols after the same `k` symbols as position `i` were received wrongly. -/
def mistakesSoFar (s r : List Int) (k i : Nat) : Nat :=
  (List.range (i + 1)).countP fun j => decide (k ≤ j ∧ before s k j = before s k i ∧ r[j]? ≠ s[j]?)

/-- Up to position `i`, how many symbols after the same `k` symbols as position `i` were received correctly, together with these. -/
def intactSoFar (s r : List Int) (k i : Nat) : Nat :=
  (List.range (i + 1)).countP fun j => decide (k ≤ j ∧ before s k j = before s k i ∧ before r k j = before s k j ∧ r[j]? = s[j]?)

end NR.C146

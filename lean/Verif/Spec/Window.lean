/-
Sliding windows.
-/
namespace NR.Spec

/-- The last `w` elements of a list. -/
def lastN {α : Type _} (w : Nat) (l : List α) : List α := l.drop (l.length - w)

/-- What a window setting keeps of a history: everything without a window (and with the setting 0), otherwise the last
`w` elements. -/
def windowed {α : Type _} : Option Nat → List α → List α
  | none, l => l
  | some 0, l => l
  | some (w + 1), l => lastN (w + 1) l

end NR.Spec

/-
Independent specification of "number of differing positions" and related notions.
-/
namespace NR.Spec

/-- Number of positions `i < n` where the sequences differ. -/
def diffCount {α : Type _} [DecidableEq α] (x y : List α) : Nat :=
  ((List.range (max x.length y.length)).filter (fun i => x[i]? ≠ y[i]?)).length

/-- Number of one bits of a natural among its `n` lowest bits. -/
def popcount (n v : Nat) : Nat := ((List.range n).filter (fun i => v.testBit i)).length

/-- All entries of the list are different. (Alias for readability.) -/
abbrev Distinct {α : Type _} (l : List α) : Prop := l.Nodup

end NR.Spec

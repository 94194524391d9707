import Verif.Model.Logging
/-
What a record is written to, from the calls made so far.
-/
namespace NR.Spec
open NR.Logging

/-- The two names of the root logger. -/
abbrev IsRoot (n : Name) : Prop := n = [] ∨ n = "root".toList

/-- Two names of the same logger. -/
def SameLogger (a n : Name) : Prop := a = n ∨ (IsRoot a ∧ IsRoot n)

/-- `a` names the logger `n` or one of its ancestors: the root logger, or a name that `n` continues after a dot. -/
abbrev Above (a n : Name) : Prop := a = n ∨ IsRoot a ∨ (a ≠ [] ∧ a ++ ['.'] <+: n)

/-- The last call for this logger asked for this level. -/
def LastLevel (cs : List Call) (n : Name) (level : Nat) : Prop :=
  ∃ pre c post, cs = pre ++ c :: post ∧ SameLogger c.name n ∧ c.level = level ∧ ∀ c' ∈ post, ¬ SameLogger c'.name n

/-- The level a logger has of its own: that of the last call for it; without one, WARNING (30) for the root logger and none (0) for others. -/
def OwnLevel (cs : List Call) (n : Name) (level : Nat) : Prop :=
  LastLevel cs n level ∨ ((∀ c ∈ cs, ¬ SameLogger c.name n) ∧ ((IsRoot n ∧ level = 30) ∨ (¬ IsRoot n ∧ level = 0)))

/-- The level that decides for a logger: that of the nearest logger, itself or an ancestor, that has one; 0 if none has. -/
def Decides (cs : List Call) (n : Name) (level : Nat) : Prop :=
  (∃ a, Above a n ∧ OwnLevel cs a level ∧ level ≠ 0 ∧ ∀ b, Above b n → Above a b → ¬ SameLogger a b → OwnLevel cs b 0) ∨
  (level = 0 ∧ ∀ a, Above a n → OwnLevel cs a 0)

end NR.Spec

import Verif.Model.Turbo
/-
The runs of a decoder, for C139.
-/
namespace NR.C139
open NR

/-- A decoder fed with words one after the other: its final state and what each run gave. -/
def feed {S : Type} (d : SoftDec S) : S → List (List ℝ) → S × List (Except PyErr SoftOut)
  | s, [] => (s, [])
  | s, x :: xs => ((feed d (d s x).1 xs).1, (d s x).2 :: (feed d (d s x).1 xs).2)

/-- All runs returned without success. -/
def AllFail (rs : List (Except PyErr SoftOut)) : Prop := ∀ r ∈ rs, ∃ o, r = .ok o ∧ o.success = false

/-- How a call that returned `o` after at most `n` rounds used its decoders, which gave `r1` and `r2`: the first decoder succeeded after
both had failed the same number of times; or the second did after the first had failed once more than it; or both failed `n` times. -/
inductive Course (n : Nat) (o : TurboOut) (r1 r2 : List (Except PyErr SoftOut)) : Prop
  | first (a : List (Except PyErr SoftOut)) (q : SoftOut) (h1 : r1 = a ++ [.ok q]) (ha : AllFail a) (hq : q.success = true)
      (h2 : AllFail r2) (hl : r2.length = a.length) (hn : r1.length ≤ n) (ho : o = ⟨q.estimate, q.llr, true, 1, 0⟩)
  | second (b : List (Except PyErr SoftOut)) (q : SoftOut) (h2 : r2 = b ++ [.ok q]) (hb : AllFail b) (hq : q.success = true)
      (h1 : AllFail r1) (hl : r2.length = r1.length) (hn : r1.length ≤ n) (ho : o = ⟨q.estimate, q.llr, true, 2, 0⟩)
  | none (h1 : AllFail r1) (h2 : AllFail r2) (l1 : r1.length = n) (l2 : r2.length = n) (ho : o.success = false) (hw : o.which = 2)

end NR.C139

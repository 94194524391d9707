import Verif.Spec.Bitwise
import Verif.Model.WeightedDecoder
/-
What the weighted decoder's two models learn, read off what its calls receive and return.
-/
namespace NR.Spec

/-- A call as seen from outside: the received word, how often the LDPC decoder was run, and the result. -/
structure WbdEvent where
  word : List ℝ
  attempts : Nat
  result : Except PyErr WbdOut

/-- The events of a sequence of calls. -/
def wbdEvents {Λ : Type} (words : List (List ℝ)) (steps : List (WbdStep Λ)) : List WbdEvent :=
  List.zipWith (fun w st => ⟨w, st.handed.length, st.result⟩) words steps

/-- The words of the good model: the model bits of the returned estimates that consist of messages only. -/
noncomputable def goodWords (idx : List Nat) (evs : List WbdEvent) : List (List Bool) :=
  evs.filterMap fun e => match e.result with
    | .ok out => recoveredWord idx out.estimate
    | .error _ => none

open Classical in
/-- The words of the other model: one for every call that returned. It is taken from the estimate if the first run of the LDPC
decoder decided or the estimate consists of messages, and from the received word otherwise. -/
noncomputable def allWords (idx : List Nat) (evs : List WbdEvent) : List (List Bool) :=
  evs.filterMap fun e => match e.result with
    | .ok out => some (if e.attempts = 1 ∨ Recovered (bytesOf (bitsAt idx out.estimate)) then bitsAt idx out.estimate
        else bitsAt idx (hardWord e.word))
    | .error _ => none

/-- The number of the words whose bit `j` has the value `v`. -/
def countAt (v : Bool) (ws : List (List Bool)) (j : Nat) : Nat := ws.countP fun w => w.getD j false == v

end NR.Spec

import Verif.Model.Turbo
import Verif.Spec.Turbo
/-
Exchange of extrinsic information between two decoders that may raise, for C58.
-/
namespace NR.C58
open NR.Spec

/-- States and input before half-round `h`; the first decoder runs in the even half-rounds, the second in the odd ones. A run that raises changes the
state only; no half-round comes after it. -/
def half {S T : Type} (d1 : SoftDec S) (d2 : SoftDec T) (ch : List ℝ) (s : S) (t : T) : Nat → S × T × List ℝ
  | 0 => (s, t, ch)
  | h + 1 =>
    let st := half d1 d2 ch s t h
    let next := fun (r : Except PyErr SoftOut) => match r with
      | .ok o => nextInput ch o.llr st.2.2
      | .error _ => st.2.2
    if h % 2 = 0 then ((d1 st.1 st.2.2).1, st.2.1, next (d1 st.1 st.2.2).2) else (st.1, (d2 st.2.1 st.2.2).1, next (d2 st.2.1 st.2.2).2)

/-- What the decoder does in half-round `h`. -/
def outcome {S T : Type} (d1 : SoftDec S) (d2 : SoftDec T) (ch : List ℝ) (s : S) (t : T) (h : Nat) : Except PyErr SoftOut :=
  let st := half d1 d2 ch s t h
  if h % 2 = 0 then (d1 st.1 st.2.2).2 else (d2 st.2.1 st.2.2).2

/-- The decoder returns without success, so the exchange goes on. -/
def Fails (r : Except PyErr SoftOut) : Prop := ∃ o, r = .ok o ∧ o.success = false

end NR.C58

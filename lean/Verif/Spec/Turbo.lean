import Mathlib.Data.Real.Basic
/-
Iterative exchange of extrinsic information between two decoders, for C58.
-/
namespace NR.Spec

/-- A decoder with hidden state: estimate, log-likelihood ratios, success. -/
abbrev Soft (S : Type) := S → List ℝ → S × (List Bool × List ℝ × Bool)

/-- The next input: the channel word plus what the last decoder added to its own input. -/
def nextInput (ch llr x : List ℝ) : List ℝ :=
  List.zipWith (fun (a b : ℝ) => a + b) ch (List.zipWith (fun (a b : ℝ) => a - b) llr x)

/-- States and input before half-round `h`; the first decoder runs in the even half-rounds, the second in the odd ones. -/
def half {S T : Type} (d1 : Soft S) (d2 : Soft T) (ch : List ℝ) (s : S) (t : T) : Nat → S × T × List ℝ
  | 0 => (s, t, ch)
  | h + 1 =>
    let st := half d1 d2 ch s t h
    if h % 2 = 0 then ((d1 st.1 st.2.2).1, st.2.1, nextInput ch (d1 st.1 st.2.2).2.2.1 st.2.2)
    else (st.1, (d2 st.2.1 st.2.2).1, nextInput ch (d2 st.2.1 st.2.2).2.2.1 st.2.2)

/-- The output of half-round `h`. -/
def halfOut {S T : Type} (d1 : Soft S) (d2 : Soft T) (ch : List ℝ) (s : S) (t : T) (h : Nat) :
    List Bool × List ℝ × Bool :=
  let st := half d1 d2 ch s t h
  if h % 2 = 0 then (d1 st.1 st.2.2).2 else (d2 st.2.1 st.2.2).2

end NR.Spec

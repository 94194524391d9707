import Verif.Model.Turbo
import Verif.Model.EntropyDecoder
/-
Model of a `TurboDecoder` whose first decoder is a `ClassifyingEntropyDecoder`.
-/
namespace NR

/-- `first_decoder.decode_buffer(...)[:3]` for an entropy decoder, turbo.py:37-38 and classifiying_decoder.py:59-136. -/
noncomputable def Ced.soft {σ Λ : Type} (c : CedCfg) (cls : Labeler σ) (ldpc : Ldpc Λ) : SoftDec (Ced σ Λ) := fun s x =>
  ((s.decode c cls ldpc x).state, (s.decode c cls ldpc x).result.map fun r => ⟨r.estimate, r.llr, r.success⟩)

/-- Turbo decoding one word after the other, turbo.py:25-57: the states of the two decoders at the end, and the results. -/
noncomputable def turboRun {S T : Type} (d1 : SoftDec S) (d2 : SoftDec T) (maxIter : Nat) :
    S → T → List (List ℝ) → S × T × List (Except PyErr TurboOut)
  | s, t, [] => (s, t, [])
  | s, t, ch :: rest =>
    let (s, t, r) := turboDecode d1 d2 maxIter false s t ch []
    let (s, t, rs) := turboRun d1 d2 maxIter s t rest
    (s, t, r :: rs)

end NR

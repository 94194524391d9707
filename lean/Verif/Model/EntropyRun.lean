import Verif.Model.EntropyDecoder
import Verif.Model.DecodingRuns
/-
The two decoders that runs/HC_eilat_July_2018/simulated_data_classifying_entropy_decoder.py:136-183 compares with the decoder types
BP and MS over the binary symmetric channel, as decoders of the loop of `simulation_step` (DecodingRuns.lean).
-/
namespace NR.C150
open NR

/-- `ldpc_decoder.decode(channel_llr)`, simulated_data_classifying_entropy_decoder.py:180. -/
def alone {Λ : Type} (ldpc : Ldpc Λ) : Coder Λ := fun s w _ =>
  let r := ldpc s (.llr w)
  (r.1, .ok (r.2.estimate, r.2.success))

/-- `entropy_decoder.decode_buffer(channel_llr)`, simulated_data_classifying_entropy_decoder.py:182. -/
noncomputable def entropy {σ Λ : Type} (c : CedCfg) (cls : Labeler σ) (ldpc : Ldpc Λ) : Coder (Ced σ Λ) := fun s w _ =>
  let st := s.decode c cls ldpc w
  (st.state, match st.result with
    | .error e => .error e
    | .ok r => .ok (r.estimate, r.success))

end NR.C150

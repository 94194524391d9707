import Verif.Model.MavDecoder
import Verif.Model.DecodingRuns
/-
The rectifying decoder as a decoder of the loop of `simulation_step` (DecodingRuns.lean), and how
runs/HC_eilat_July_2018/simulated_data_mavlink_decoding.py:93-116, 141-150 sets it up without clustering and without learning.
-/
namespace NR.C152
open NR

/-- `rectify_decoder.decode_buffer(channel_llr, errors[tx_idx])`, simulated_data_mavlink_decoding.py:166. The positions of the errors are
used for the debug analysis only, which is off. -/
noncomputable def rectifying {σ Λ : Type} (c : MavCfg) (cls : Labeler σ) (ldpc : Ldpc Λ) : Coder (Mav σ Λ) := fun s w _ =>
  let st := s.decode c cls ldpc w
  (st.state, match st.result with
    | .error e => .error e
    | .ok r => .ok (r.estimate, r.success))

/-- The structures of the parts of the last buffer, `bs.segment_buffer(….tobytes())`, simulated_data_mavlink_decoding.py:97-112. -/
def structuresOf : List (List Byte) → Except PyErr (List (Option (List (Nat × Nat))))
  | [] => .ok []
  | part :: rest => do
    let seg ← segmentBuffer decode part
    let t ← structuresOf rest
    .ok (some seg.struct :: t)

/-- The rectifying decoder made for a point of the simulation, simulated_data_mavlink_decoding.py:97-116, 142-150, with the model loaded
and the structures of the last buffer. -/
def setUp {σ Λ : Type} (c : MavCfg) (model : BufferModel ℝ) (cls : σ) (ldpc : Λ) (parts : List (List Byte)) : Except PyErr (Mav σ Λ) := do
  let structs ← structuresOf parts
  match (Mav.new c.nClusters model cls ldpc).setStructures c structs with
  | (_, .error e) => .error e
  | (s, .ok _) => .ok s

end NR.C152

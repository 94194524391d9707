import Verif.Model.Header
import Verif.Model.Mavlink
/-
Model of inference/buffer_segmentation.py.

The parser is a parameter: a function of the candidate bytes that returns normally or raises. A parser whose answer
depends on earlier calls is not modelled (the dialect's decoder, without signing, is such a function: see `decode`).
-/
namespace NR

/-- `MsgParts`, buffer_segmentation.py:14-19. -/
inductive MsgPart where
  | header
  | payload
  | checksum
  | unknown
  deriving DecidableEq, Repr

/-- Python dict assignment `d[k] = v` on the list of items in insertion order. -/
def dictSet {κ ν : Type _} [DecidableEq κ] (d : List (κ × ν)) (k : κ) (v : ν) : List (κ × ν) :=
  if k ∈ d.map Prod.fst then d.map fun p => if p.1 = k then (k, v) else p else d ++ [(k, v)]

/-- Local variables of `segment_buffer`: `msg_parts`, `bit_validity` (0 / 1, here integers), `buffer_structure`
(the dict as its list of items), buffer_segmentation.py:98-102. -/
structure SegState where
  parts : List MsgPart
  validity : List Int
  struct : List (Nat × Nat)
  deriving DecidableEq, Repr

/-- Initial values, buffer_segmentation.py:98-102. -/
def segInit (buffer : List Byte) : SegState :=
  ⟨List.replicate buffer.length .unknown, List.replicate (buffer.length * 8) 0, []⟩

/-- Loop body of `segment_buffer`, buffer_segmentation.py:107-124. -/
def segStep {ρ : Type _} (parser : List Byte → Except PyErr ρ) (buffer : List Byte) (st : SegState) (byteIdx : Nat) :
    Except PyErr SegState :=
  match st.parts[byteIdx]? with
  | none => .error .indexError
  | some p =>
    if p ≠ .unknown then .ok st
    else if isValidHeader (pySlice buffer byteIdx (byteIdx + headerLen)) then
      match FrameHeader.fromBuffer (pySlice buffer byteIdx (byteIdx + headerLen)) with
      | .error e => .error e
      | .ok header =>
        let candidate := pySlice buffer byteIdx (byteIdx + header.length + protocolOverhead)
        match parser candidate with
        | .error .mavError => .ok st
        | .error e => .error e
        | .ok _ =>
          let parts := setSlice st.parts byteIdx (byteIdx + headerLen) .header
          let parts := setSlice parts (byteIdx + headerLen) (byteIdx + headerLen + header.length) .payload
          let parts := setSlice parts (byteIdx + headerLen + header.length)
            (byteIdx + protocolOverhead + header.length) .checksum
          let validity := setSlice st.validity (byteIdx * 8) ((byteIdx + candidate.length) * 8) 1
          .ok ⟨parts, validity, dictSet st.struct byteIdx header.msgId⟩
    else .ok st

/-- `segment_buffer`, buffer_segmentation.py:85-125; `range(len(buffer) - protocol_overhead + 1)`. -/
def segmentBuffer {ρ : Type _} (parser : List Byte → Except PyErr ρ) (buffer : List Byte) : Except PyErr SegState :=
  (List.range (buffer.length + 1 - protocolOverhead)).foldlM (segStep parser buffer) (segInit buffer)

/-- The `while` loop shared by `bad_buffer_parts` and `bad_buffer_idx`, buffer_segmentation.py:141-153, 169-181:
the `(start, end)` pairs in the order they are produced. `labels` are the labels from `byteIdx` on. -/
def badLoop : List MsgPart → Nat → Nat → List (Nat × Nat)
  | [], byteIdx, length => if length > 0 then [(byteIdx - length, byteIdx)] else []
  | p :: rest, byteIdx, length =>
    if p = .unknown then badLoop rest (byteIdx + 1) (length + 1)
    else if length > 0 then (byteIdx - length, byteIdx) :: badLoop rest (byteIdx + 1) 0
    else badLoop rest (byteIdx + 1) 0

/-- `bad_buffer_idx`, buffer_segmentation.py:155-181. The loop reads `msg_parts[byte_idx]` for `byte_idx < len(buffer)`:
IndexError if there are fewer labels than bytes. -/
def badBufferIdx (buffer : List Byte) (parts : List MsgPart) : Except PyErr (Option (List (Nat × Nat))) :=
  if MsgPart.unknown ∉ parts then .ok none
  else if parts.length < buffer.length then .error .indexError
  else .ok (some (badLoop (parts.take buffer.length) 0 0))

/-- `bad_buffer_parts`, buffer_segmentation.py:127-153 (the dict as its list of items; the starts are distinct). -/
def badBufferParts (buffer : List Byte) (parts : List MsgPart) : Except PyErr (List (Nat × List Byte)) :=
  if MsgPart.unknown ∉ parts then .ok []
  else if parts.length < buffer.length then .error .indexError
  else .ok ((badLoop (parts.take buffer.length) 0 0).foldl
    (fun d r => dictSet d r.1 (pySlice buffer r.1 r.2)) [])

end NR

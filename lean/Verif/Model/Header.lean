import Verif.Model.Meta
import Verif.Model.BitOps
/-
Model of protocol_meta/msg_header.py.
-/

namespace NR

/-- `is_valid_header`, msg_header.py:20-34. -/
def isValidHeader (buffer : List Byte) : Bool :=
  if buffer.length != headerLen then false
  else
    (buffer.getD 0 0).toNat == stx
      && (msgsPayloadLength.map Prod.fst).contains (buffer.getD 5 0).toNat
      && payloadLen (buffer.getD 5 0).toNat == some (buffer.getD 1 0).toNat

/-- `FrameHeader` object, msg_header.py:68-81: it only holds its six bytes. -/
structure FrameHeader where
  buffer : List Byte
  deriving DecidableEq, Repr

/-- `bytes([...])` of a list of ints: ValueError unless all are in 0..255. -/
def pyBytes (l : List Int) : Except PyErr (List Byte) :=
  if l.all (fun i => decide (0 ≤ i) && decide (i < 256)) then .ok (l.map fun i => BitVec.ofInt 8 i)
  else .error .valueError

/-- `msg_id in msgs_payload_length` / `.get(msg_id)` for an arbitrary int. -/
def payloadLenInt (i : Int) : Option Nat := if 0 ≤ i then payloadLen i.toNat else none

/-- `FrameHeader.__init__`, msg_header.py:71-81. -/
def mkFrameHeader (msgId sysId compId seq : Int) : Except PyErr FrameHeader :=
  if sysId < 0 ∨ compId < 0 ∨ seq < 0 ∨ sysId > 255 ∨ compId > 255 ∨ seq > 255 then .error .nonUint8
  else match payloadLenInt msgId with
    | some length => do
      let b ← pyBytes [stx, length, seq, sysId, compId, msgId]
      .ok ⟨b⟩
    | none => if msgId < 0 ∨ msgId > 255 then .error .nonUint8 else .error .nonExistentMsdId

namespace FrameHeader
/-- `length`, msg_header.py:83-86. -/
def length (h : FrameHeader) : Nat := (h.buffer.getD 1 0).toNat
/-- `sequence`, msg_header.py:88-91. -/
def sequence (h : FrameHeader) : Nat := (h.buffer.getD 2 0).toNat
/-- `sys_id`, msg_header.py:93-96. -/
def sysId (h : FrameHeader) : Nat := (h.buffer.getD 3 0).toNat
/-- `comp_id`, msg_header.py:98-101. -/
def compId (h : FrameHeader) : Nat := (h.buffer.getD 4 0).toNat
/-- `msg_id`, msg_header.py:103-106. -/
def msgId (h : FrameHeader) : Nat := (h.buffer.getD 5 0).toNat
/-- `bit_string`, msg_header.py:108-111. -/
def bitString (h : FrameHeader) : List Bool := bytesBits h.buffer

/-- `FrameHeader.hamming_distance`, msg_header.py:113-117. -/
def hammingDistanceTo (h : FrameHeader) (some_buffer : List Byte) : Except PyErr Nat :=
  if some_buffer.length != headerLen then .error .headerLength
  else hammingDistance (.bytes h.buffer) (.bytes some_buffer)

/-- `FrameHeader.from_buffer`, msg_header.py:125-138. `seq, sys_id, comp_id, msg_id = tuple(buffer[2:])`. -/
def fromBuffer (buffer : List Byte) (forceMsgId : Option Int := none) : Except PyErr FrameHeader :=
  if buffer.length != headerLen then .error .headerLength
  else
    let seq := (buffer.getD 2 0).toNat
    let sysId := (buffer.getD 3 0).toNat
    let compId := (buffer.getD 4 0).toNat
    let msgId : Int := forceMsgId.getD (buffer.getD 5 0).toNat
    mkFrameHeader msgId sysId compId seq
end FrameHeader

/-- `max_len is None or msg_len <= max_len`, msg_header.py:58. -/
def lenAllowed (maxLen : Option Int) (msgLen : Nat) : Bool :=
  match maxLen with
  | none => true
  | some m => decide ((msgLen : Int) ≤ m)

/-- Loop state of `hamming_distance_2_valid_header`: `(min_dist, chosen_msg_id)`. The `for` loop with `break`,
msg_header.py:56-62, over the dict items. -/
def nearestLoop (b1 b5 : Nat) (maxLen : Option Int) :
    List (Nat × Nat) → Nat → Int → Except PyErr (Nat × Int)
  | [], minDist, chosen => .ok (minDist, chosen)
  | (msgId, msgLen) :: rest, minDist, chosen => do
    let d1 ← hammingDistance (.int msgLen) (.int b1)
    let d2 ← hammingDistance (.int msgId) (.int b5)
    let cand := d1 + d2
    let (minDist', chosen') := if cand < minDist && lenAllowed maxLen msgLen then (cand, (msgId : Int)) else (minDist, chosen)
    if cand = 0 then .ok (minDist', chosen')
    else nearestLoop b1 b5 maxLen rest minDist' chosen'

/-- `hamming_distance_2_valid_header`, msg_header.py:37-65. -/
def hammingDistance2ValidHeader (buffer : List Byte) (maxLen : Option Int := none) :
    Except PyErr (Nat × Int) :=
  if buffer.length != headerLen then .error .headerLength
  else do
    let dist ← hammingDistance (.int stx) (.int (buffer.getD 0 0).toNat)
    let (minDist, chosen) ←
      nearestLoop (buffer.getD 1 0).toNat (buffer.getD 5 0).toNat maxLen msgsPayloadLength 17 (-1)
    .ok (dist + minDist, chosen)

end NR

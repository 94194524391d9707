import Verif.Model.Struct
/-
Model of protocol_meta/protocol_meta.py.
-/

namespace NR
open Dialect

/-- `STX = PROTOCOL_MARKER_V1 = 254`, protocol_meta.py:7, HC_dialect.py (PROTOCOL_MARKER_V1). -/
def stx : Nat := 254

/-- `header_length = HEADER_LEN_V1 = 6`, protocol_meta.py:15. -/
def headerLen : Nat := 6

/-- `crc_length`, protocol_meta.py:16. -/
def crcLen : Nat := 2

/-- `protocol_overhead`, protocol_meta.py:17,29. -/
def protocolOverhead : Nat := headerLen + crcLen

/-- `field_lengths`, protocol_meta.py:8-9 (bytes per scalar; array lengths play no role). -/
def fieldLength : CType → Nat
  | .u32 => 4 | .f32 => 4 | .u16 => 2 | .u8 => 1 | .i32 => 4 | .i16 => 2 | .i8 => 1
  | .u64 => 8 | .char => 1 | .i64 => 8

/-- `mavlink_map.get(msg_id)`: lookup in the dict (keys are unique). -/
def lookupMsg (id : Nat) : Option MsgClass := mavlinkMap.find? (fun m => m.id == id)

/-- `__msg_len`, protocol_meta.py:54-59: sum of `field_lengths` over `fieldtypes`. -/
def msgLen (m : MsgClass) : Nat := (m.fieldtypes.map fieldLength).sum

/-- `msgs_payload_length`, protocol_meta.py:30, as the list of dict items in order. -/
def msgsPayloadLength : List (Nat × Nat) := mavlinkMap.map fun m => (m.id, msgLen m)

/-- `msgs_payload_length.get(msg_id)`. -/
def payloadLen (id : Nat) : Option Nat := msgsPayloadLength.lookup id

/-- `__msg_fields`, protocol_meta.py:35-52: ordered field names with the type found by name
(`""`, here `none`, if the name is missing). -/
def msgFields (m : MsgClass) : List (String × Option CType) :=
  (List.range m.fieldnames.length).map fun i =>
    let nm := m.orderedFieldnames.getD i ""
    (nm, (m.fieldnames.zip m.fieldtypes).lookup nm)

end NR

import Verif.Model.Stream
/-
Model of mavlink_utils/minimal_dialect.py, the dialect of data_generation/mission_profile.py. Its code outside the message
classes is the text of HC_dialect.py, on other lines (they differ in a comment and in `check_signature`,
minimal_dialect.py:2508-2541, which is only called with a signing key); the message classes were generated
from the text with the checks listed in Dialect.lean. The codec is modelled as in Mavlink.lean and Stream.lean, with the message
table as a parameter.
-/
namespace NR

namespace Minimal
open CType

/-- minimal_dialect.py:2040 `MAVLink_heartbeat_message` -/
def min0 : MsgClass where
  id := 0
  name := "HEARTBEAT"
  fieldnames := ["type", "autopilot", "base_mode", "custom_mode", "system_status", "mavlink_version"]
  orderedFieldnames := ["custom_mode", "type", "autopilot", "base_mode", "system_status", "mavlink_version"]
  fieldtypes := [u8, u8, u8, u32, u8, u8]
  format := ['<', 'I', 'B', 'B', 'B', 'B', 'B']
  orders := [1, 2, 3, 0, 4, 5]
  lengths := [1, 1, 1, 1, 1, 1]
  arrayLengths := [0, 0, 0, 0, 0, 0]
  crcExtra := 50

/-- minimal_dialect.py:2081 `MAVLink_global_position_int_message` -/
def min33 : MsgClass where
  id := 33
  name := "GLOBAL_POSITION_INT"
  fieldnames := ["time_boot_ms", "lat", "lon", "alt", "relative_alt", "bottom_clearnce", "depth", "vx", "vy", "vz", "hdg"]
  orderedFieldnames := ["time_boot_ms", "lat", "lon", "alt", "relative_alt", "bottom_clearnce", "depth", "vx", "vy", "vz", "hdg"]
  fieldtypes := [u32, i32, i32, f32, f32, f32, f32, f32, f32, f32, f32]
  format := ['<', 'I', 'i', 'i', 'f', 'f', 'f', 'f', 'f', 'f', 'f', 'f']
  orders := [0, 1, 2, 3, 4, 5, 6, 7, 8, 9, 10]
  lengths := [1, 1, 1, 1, 1, 1, 1, 1, 1, 1, 1]
  arrayLengths := [0, 0, 0, 0, 0, 0, 0, 0, 0, 0, 0]
  crcExtra := 146

/-- minimal_dialect.py:2126 `MAVLink_scaled_svs_message` -/
def min212 : MsgClass where
  id := 212
  name := "SCALED_SVS"
  fieldnames := ["time_boot_ms", "Speed_of_Sound", "Depth", "Temperature", "Status", "Reserved"]
  orderedFieldnames := ["time_boot_ms", "Speed_of_Sound", "Depth", "Reserved", "Temperature", "Status"]
  fieldtypes := [u32, f32, f32, u16, u8, f32]
  format := ['<', 'I', 'f', 'f', 'f', 'H', 'B']
  orders := [0, 1, 2, 4, 5, 3]
  lengths := [1, 1, 1, 1, 1, 1]
  arrayLengths := [0, 0, 0, 0, 0, 0]
  crcExtra := 205

/-- minimal_dialect.py:2163 `MAVLink_chamber_status_message` -/
def min218 : MsgClass where
  id := 218
  name := "CHAMBER_STATUS"
  fieldnames := ["time_boot_ms", "chamber_num", "pressure", "temperature", "humidity"]
  orderedFieldnames := ["time_boot_ms", "temperature", "humidity", "chamber_num", "pressure"]
  fieldtypes := [u32, u8, u8, u16, u16]
  format := ['<', 'I', 'H', 'H', 'B', 'B']
  orders := [0, 3, 4, 1, 2]
  lengths := [1, 1, 1, 1, 1]
  arrayLengths := [0, 0, 0, 0, 0]
  crcExtra := 28

/-- minimal_dialect.py:2200 `MAVLink_system_status_2_message` -/
def min225 : MsgClass where
  id := 225
  name := "SYSTEM_STATUS_2"
  fieldnames := ["time_boot_ms", "hc_mode", "hc_system_status", "hc_err_id", "debug1", "debug2"]
  orderedFieldnames := ["time_boot_ms", "hc_err_id", "debug1", "debug2", "hc_mode", "hc_system_status"]
  fieldtypes := [u32, u16, u16, u32, f32, f32]
  format := ['<', 'I', 'I', 'f', 'f', 'H', 'H']
  orders := [0, 4, 5, 1, 2, 3]
  lengths := [1, 1, 1, 1, 1, 1]
  arrayLengths := [0, 0, 0, 0, 0, 0]
  crcExtra := 101

/-- minimal_dialect.py:2237 `MAVLink_pinger_data_message` -/
def min234 : MsgClass where
  id := 234
  name := "PINGER_DATA"
  fieldnames := ["time_boot_ms", "range", "azimuth"]
  orderedFieldnames := ["time_boot_ms", "range", "azimuth"]
  fieldtypes := [u32, f32, f32]
  format := ['<', 'I', 'f', 'f']
  orders := [0, 1, 2]
  lengths := [1, 1, 1]
  arrayLengths := [0, 0, 0]
  crcExtra := 126

/-- `mavlink_map` in insertion order, minimal_dialect.py:2272-2279. -/
def mavlinkMap : List MsgClass := [min0, min33, min212, min218, min225, min234]

/-- `mavlink_map.get(msg_id)`. -/
def lookupMsg (id : Nat) : Option MsgClass := mavlinkMap.find? fun m => m.id == id

end Minimal

/-- `MAVLink.decode` after the header has been unpacked, minimal_dialect.py:2570-2683, for a table of message classes. -/
def decodeBodyWith (table : Nat → Option MsgClass) (msgbuf : List Byte)
    (headerlen magic mlen incompat compat seq srcSystem srcComponent msgId : Nat) : Except PyErr MavMsg :=
  let sigLen := if incompat % 2 = 1 then 13 else 0
  let n := msgbuf.length
  if magic ≠ 254 ∧ magic ≠ 253 then .error .mavError
  else if (mlen : Int) ≠ (n : Int) - (headerlen + 2 + sigLen : Nat) then .error .mavError
  else match table msgId with
    | none => .error .mavError
    | some type =>
      let body := n - (2 + sigLen)
      let crcBytes := (msgbuf.drop body).take 2
      if crcBytes.length ≠ 2 then .error .mavError
      else
        let crc := leNat crcBytes
        let crcbuf := pySlice msgbuf 1 body ++ [BitVec.ofNat 8 type.crcExtra]
        if crc ≠ (x25 crcbuf).toNat then .error .mavError
        else match structFmt type.format with
          | none => .error .mavError
          | some fmt =>
            let csize := calcsize fmt
            let mbuf := pySlice msgbuf headerlen body
            let mbuf := mbuf ++ List.replicate (csize - mbuf.length) 0
            let mbuf := mbuf.take csize
            match structUnpack fmt mbuf with
            | .error _ => .error .mavError
            | .ok t => do
              let tlist ← reorder type t
              let tlist ← terminateStrings type tlist
              if tlist.length ≠ type.fieldnames.length then .error .mavError
              else .ok {
                cls := type, msgId := msgId, incompat := incompat, compat := compat, mlen := mlen,
                seq := seq, srcSystem := srcSystem, srcComponent := srcComponent, fields := tlist,
                payload := pySlice msgbuf 6 body, crc := crc }

/-- `MAVLink.decode`, minimal_dialect.py:2549-2683, for a table of message classes. -/
def decodeWith (table : Nat → Option MsgClass) (msgbuf : List Byte) : Except PyErr MavMsg :=
  match msgbuf with
  | [] => .error .indexError
  | b0 :: _ =>
    if b0 ≠ 254 then
      match msgbuf with
      | magic :: mlen :: inc :: comp :: seq :: sys :: cmp :: low0 :: low1 :: high :: _ =>
        decodeBodyWith table msgbuf 10 magic.toNat mlen.toNat inc.toNat comp.toNat seq.toNat sys.toNat cmp.toNat
          ((low0.toNat + 256 * low1.toNat) ||| (high.toNat <<< 16))
      | _ => .error .mavError
    else
      match msgbuf with
      | magic :: mlen :: seq :: sys :: cmp :: id :: _ =>
        decodeBodyWith table msgbuf 6 magic.toNat mlen.toNat 0 0 seq.toNat sys.toNat cmp.toNat id.toNat
      | _ => .error .mavError

/-- `MAVLink.decode` of the minimal dialect, minimal_dialect.py:2549-2683. -/
def Minimal.decode : List Byte → Except PyErr MavMsg := decodeWith Minimal.lookupMsg

/-- The decoding branch of `__parse_char_legacy`, minimal_dialect.py:2472-2489, with the given `decode`. -/
def parseFrameWith (dec : List Byte → Except PyErr MavMsg) (st : Parser) (headerLen : Nat) (h3 : Option (Byte × Byte × Nat)) :
    Parser × Except PyErr (Option Parsed) :=
  let mbuf := (st.buf.drop st.bufIndex).take st.expectedLength
  let st := { st with bufIndex := st.bufIndex + st.expectedLength, expectedLength := headerLen + 2 }
  match h3 with
  | none => (st, .error .unboundLocalError)
  | some (magic, incompat, _) =>
    let res := if magic = 253 ∧ incompat.toNat / 2 ≠ 0 then .error .mavError else dec mbuf
    match res with
    | .ok m => (st, .ok (some (.msg mbuf m)))
    | .error e =>
      if st.robustParsing ∧ e = .mavError then
        ({ st with totalReceiveErrors := st.totalReceiveErrors + 1 }, .ok (some (.bad mbuf)))
      else (st, .error e)

/-- `__parse_char_legacy`, minimal_dialect.py:2445-2490. -/
def parseCharLegacyWith (dec : List Byte → Except PyErr MavMsg) (st : Parser) : Parser × Except PyErr (Option Parsed) :=
  let pending := st.buf.drop st.bufIndex
  let headerLen := if pending.head? = some 253 then 10 else 6
  match pending.head? with
  | some magic =>
    if magic ≠ 254 ∧ magic ≠ 253 then
      let st := { st with bufIndex := st.bufIndex + 1 }
      if st.robustParsing then
        ({ st with expectedLength := headerLen + 2, totalReceiveErrors := st.totalReceiveErrors + 1 },
          .ok (some (.bad [magic])))
      else if st.havePrefixError then (st, .ok none)
      else ({ st with havePrefixError := true, totalReceiveErrors := st.totalReceiveErrors + 1 }, .error .mavError)
    else
      let st := { st with havePrefixError := false }
      let h3 := readHeader3 headerLen pending
      let st : Parser := match h3 with
        | some (_, _, el) => { st with expectedLength := el }
        | none => st
      if st.expectedLength ≥ headerLen + 2 ∧ st.bufLen ≥ st.expectedLength then parseFrameWith dec st headerLen h3
      else (st, .ok none)
  | none =>
    let st := { st with havePrefixError := false }
    if st.expectedLength ≥ headerLen + 2 ∧ st.bufLen ≥ st.expectedLength then parseFrameWith dec st headerLen none
    else (st, .ok none)

/-- `parse_char`, minimal_dialect.py:2414-2443. -/
def parseCharWith (dec : List Byte → Except PyErr MavMsg) (st : Parser) (c : List Byte) : Parser × Except PyErr (Option Parsed) :=
  let st := { st with buf := st.buf ++ c, totalBytesReceived := st.totalBytesReceived + c.length }
  let (st, r) := parseCharLegacyWith dec st
  match r with
  | .error e => (st, .error e)
  | .ok (some m) => ({ st with totalPacketsReceived := st.totalPacketsReceived + 1 }, .ok (some m))
  | .ok none =>
    if st.bufLen = 0 ∧ st.bufIndex ≠ 0 then ({ st with buf := [], bufIndex := 0 }, .ok none) else (st, .ok none)

/-- The `while True` loop of `parse_buffer`, minimal_dialect.py:2498-2502, bounded as in Stream.lean. -/
def parseLoopWith (dec : List Byte → Except PyErr MavMsg) :
    Nat → Parser → List Parsed → Option (Parser × Except PyErr (Option (List Parsed)))
  | 0, _, _ => none
  | n + 1, st, ret =>
    match parseCharWith dec st [] with
    | (st, .error e) => some (st, .error e)
    | (st, .ok none) => some (st, .ok (some ret))
    | (st, .ok (some m)) => parseLoopWith dec n st (ret ++ [m])

/-- `parse_buffer`, minimal_dialect.py:2492-2503. -/
def parseBufferWith (dec : List Byte → Except PyErr MavMsg) (st : Parser) (s : List Byte) :
    Option (Parser × Except PyErr (Option (List Parsed))) :=
  match parseCharWith dec st s with
  | (st, .error e) => some (st, .error e)
  | (st, .ok none) => some (st, .ok none)
  | (st, .ok (some m)) => parseLoopWith dec (st.bufLen + 1) st [m]

/-- `parse_buffer` of the minimal dialect, minimal_dialect.py:2492-2503. -/
def Minimal.parseBuffer : Parser → List Byte → Option (Parser × Except PyErr (Option (List Parsed))) := parseBufferWith Minimal.decode

end NR

import Verif.Model.Signing
/-
Model of packing a message when the module variable `WIRE_PROTOCOL_VERSION` (mavlink_utils/HC_dialect.py:16, '1.0' as shipped) is
set to another value, and with `force_mavlink1`: `MAVLink_header.pack` (97-104) and `MAVLink_message.pack` (221-248).
-/
namespace NR
open Dialect

/-- `while plen > 1 and payload[plen-1] == nullbyte: plen -= 1`, HC_dialect.py:230-231, started at the second argument. -/
def stripLen (payload : List Byte) : Nat → Nat
  | n + 2 => if payload.getD (n + 1) 0 = 0 then stripLen payload (n + 1) else n + 2
  | n => n

/-- `MAVLink_header.pack`, HC_dialect.py:97-104; `wire` is `WIRE_PROTOCOL_VERSION`. -/
def packHeader (wire : String) (force : Bool) (mlen incompat compat : Int) (seq srcSystem srcComponent : Int) (msgId : Nat) :
    Except PyErr (List Byte) :=
  if wire = "2.0" ∧ force = false then
    structPack (List.replicate 7 (.scalar .u8) ++ [.scalar .u16, .scalar .u8])
      [.int 254, .int mlen, .int incompat, .int compat, .int seq, .int srcSystem, .int srcComponent,
        .int ((msgId % 65536 : Nat) : Int), .int ((msgId / 65536 : Nat) : Int)]
  else
    structPack (List.replicate 6 (.scalar .u8))
      [.int 254, .int mlen, .int seq, .int srcSystem, .int srcComponent, .int msgId]

/-- `m.pack(mav, force_mavlink1)`, HC_dialect.py:221-248 with the `pack` of the message class (e.g. 2226-2227), for a sender with
signing state `s`; SHA-256 is `H`. -/
def packMsgW (H : List Byte → List Byte) (wire : String) (force : Bool) (s : Signing) (m : MsgClass) (fields : List FieldVal)
    (seq srcSystem srcComponent : Int) : Signing × Except PyErr (List Byte) :=
  match packPayload m fields with
  | .error e => (s, .error e)
  | .ok payload =>
    let plen := if wire ≠ "1.0" ∧ force = false then stripLen payload payload.length else payload.length
    let payload := payload.take plen
    match packHeader wire force payload.length (if s.signOutgoing then 1 else 0) 0 seq srcSystem srcComponent m.id with
    | .error e => (s, .error e)
    | .ok hdr =>
      let msgbuf := hdr ++ payload
      let crc := x25 (msgbuf.drop 1 ++ [BitVec.ofNat 8 m.crcExtra])
      let msgbuf := msgbuf ++ leBytes 2 crc.toNat
      if s.signOutgoing ∧ force = false then signPacket H s msgbuf else (s, .ok msgbuf)

end NR

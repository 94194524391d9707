import Verif.Model.Stream
/-
Model of message signing, mavlink_utils/HC_dialect.py: `MAVLinkSigning` (8577-8593), `check_signature` (8774-8819),
`decode` with its signature branch (8821-8955), `sign_packet` (211-219) and `pack` with signing on (221-248).
`hashlib`'s SHA-256 is a parameter `H` (bytes to digest bytes). The `allow_unsigned_callback` is a function of the message
id alone. A `secret_key` is a byte string or None; `stream_timestamps` is an association list.
-/
namespace NR
open Dialect

/-- `MAVLinkSigning`, HC_dialect.py:8582-8595. -/
structure Signing where
  secretKey : Option (List Byte)
  timestamp : Nat
  linkId : Int
  signOutgoing : Bool
  allowUnsigned : Option (Nat → Bool)
  streams : List ((Nat × Nat × Nat) × Nat)
  sigCount : Nat
  badsigCount : Nat
  goodsigCount : Nat
  unsignedCount : Nat
  rejectCount : Nat

/-- `MAVLinkSigning.__init__`, HC_dialect.py:8584-8595. -/
def Signing.init : Signing :=
  { secretKey := none, timestamp := 0, linkId := 0, signOutgoing := false, allowUnsigned := none, streams := [],
    sigCount := 0, badsigCount := 0, goodsigCount := 0, unsignedCount := 0, rejectCount := 0 }

/-- `check_signature`, HC_dialect.py:8774-8819, for a buffer of at least 13 bytes (`decode` has checked the length).
`key` is `self.signing.secret_key`. -/
def checkSignature (H : List Byte → List Byte) (key : List Byte) (s : Signing) (msgbuf : List Byte)
    (srcSystem srcComponent : Nat) : Signing × Bool :=
  let n := msgbuf.length
  let timestampBuf := pySlice msgbuf (n - 12) (n - 6)
  let linkId := (msgbuf.getD (n - 13) 0).toNat
  -- '<IH': tlow + (thigh << 32)
  let timestamp := leNat (timestampBuf.take 4) + leNat (timestampBuf.drop 4) * 2 ^ 32
  let streamKey := (linkId, srcSystem, srcComponent)
  let verify (s : Signing) : Signing × Bool :=
    if (H (key ++ msgbuf.take (n - 6))).take 6 ≠ msgbuf.drop (n - 6) then (s, false)
    else ({ s with timestamp := max s.timestamp timestamp }, true)
  match s.streams.lookup streamKey with
  | some t => if timestamp ≤ t then (s, false) else verify s
  | none =>
    if timestamp + 6000 * 1000 < s.timestamp then (s, false)
    else verify { s with streams := s.streams ++ [(streamKey, timestamp)] }

/-- The call of `allow_unsigned_callback` and its counters, HC_dialect.py:8882-8893. -/
def askUnsigned (s : Signing) (msgId : Nat) : Signing × Bool :=
  match s.allowUnsigned with
  | none => (s, false)
  | some cb =>
    if cb msgId then ({ s with unsignedCount := s.unsignedCount + 1 }, true)
    else ({ s with rejectCount := s.rejectCount + 1 }, false)

/-- The signature branch of `decode`, HC_dialect.py:8868-8895: the value of `sig_ok`, or MAVError. -/
def signatureGate (H : List Byte → List Byte) (s : Signing) (msgbuf : List Byte) (sigLen srcSystem srcComponent msgId : Nat) :
    Signing × Except PyErr Bool :=
  let s := if sigLen = 13 then { s with sigCount := s.sigCount + 1 } else s
  match s.secretKey with
  | none => (s, .ok false)
  | some key =>
    if sigLen = 13 then
      let (s, sigOk) := checkSignature H key s msgbuf srcSystem srcComponent
      if sigOk then ({ s with goodsigCount := s.goodsigCount + 1 }, .ok true)
      else
        let (s, accept) := askUnsigned { s with badsigCount := s.badsigCount + 1 } msgId
        if accept then (s, .ok false) else (s, .error .mavError)
    else
      let (s, accept) := askUnsigned s msgId
      if accept then (s, .ok false) else (s, .error .mavError)

/-- What `decode` returns when signing is looked at: the message, `get_signed()` and `get_link_id()`. -/
structure SignedMsg where
  msg : MavMsg
  signed : Bool
  linkId : Option Nat
  deriving DecidableEq, Repr

/-- The part of `decode` after the signature branch, HC_dialect.py:8897-8955. -/
def decodePayload (type : MsgClass) (msgbuf : List Byte)
    (headerlen body mlen incompat compat seq srcSystem srcComponent msgId crc : Nat) : Except PyErr MavMsg :=
  match structFmt type.format with
  | none => .error .mavError
  | some fmt =>
    let csize := calcsize fmt
    let mbuf := pySlice msgbuf headerlen body
    let mbuf := mbuf ++ List.replicate (csize - mbuf.length) 0
    let mbuf := mbuf.take csize
    match structUnpack fmt mbuf with
    | .error _ => .error .mavError
    | .ok t => do
      let tlist ← reorder type t
      let tlist ← terminateStrings type tlist
      if tlist.length ≠ type.fieldnames.length then .error .mavError
      else .ok {
        cls := type, msgId := msgId, incompat := incompat, compat := compat, mlen := mlen,
        seq := seq, srcSystem := srcSystem, srcComponent := srcComponent, fields := tlist,
        payload := pySlice msgbuf 6 body, crc := crc }

/-- `MAVLink.decode` after the header has been unpacked, with the signature branch, HC_dialect.py:8841-8955. -/
def decodeBodyS (H : List Byte → List Byte) (s : Signing) (msgbuf : List Byte)
    (headerlen magic mlen incompat compat seq srcSystem srcComponent msgId : Nat) : Signing × Except PyErr SignedMsg :=
  let sigLen := if incompat % 2 = 1 then 13 else 0
  let n := msgbuf.length
  if magic ≠ 254 ∧ magic ≠ 253 then (s, .error .mavError)
  else if (mlen : Int) ≠ (n : Int) - (headerlen + 2 + sigLen : Nat) then (s, .error .mavError)
  else match lookupMsg msgId with
    | none => (s, .error .mavError)
    | some type =>
      let body := n - (2 + sigLen)
      let crcBytes := (msgbuf.drop body).take 2
      if crcBytes.length ≠ 2 then (s, .error .mavError)
      else
        let crc := leNat crcBytes
        let crcbuf := pySlice msgbuf 1 body ++ [BitVec.ofNat 8 type.crcExtra]
        if crc ≠ (x25 crcbuf).toNat then (s, .error .mavError)
        else match signatureGate H s msgbuf sigLen srcSystem srcComponent msgId with
          | (s, .error e) => (s, .error e)
          | (s, .ok sigOk) =>
            match decodePayload type msgbuf headerlen body mlen incompat compat seq srcSystem srcComponent msgId crc with
            | .error e => (s, .error e)
            | .ok m => (s, .ok ⟨m, sigOk, if sigOk then some (msgbuf.getD (n - 13) 0).toNat else none⟩)

/-- `MAVLink.decode` with its signing state, HC_dialect.py:8821-8955. -/
def decodeS (H : List Byte → List Byte) (s : Signing) (msgbuf : List Byte) : Signing × Except PyErr SignedMsg :=
  match msgbuf with
  | [] => (s, .error .indexError)
  | b0 :: _ =>
    if b0 ≠ 254 then
      match msgbuf with
      | magic :: mlen :: inc :: comp :: seq :: sys :: cmp :: low0 :: low1 :: high :: _ =>
        decodeBodyS H s msgbuf 10 magic.toNat mlen.toNat inc.toNat comp.toNat seq.toNat sys.toNat cmp.toNat
          ((low0.toNat + 256 * low1.toNat) ||| (high.toNat <<< 16))
      | _ => (s, .error .mavError)
    else
      match msgbuf with
      | magic :: mlen :: seq :: sys :: cmp :: id :: _ =>
        decodeBodyS H s msgbuf 6 magic.toNat mlen.toNat 0 0 seq.toNat sys.toNat cmp.toNat id.toNat
      | _ => (s, .error .mavError)

/-- The state after decoding frames one after the other (exceptions caught by the caller). -/
def decodeAllS (H : List Byte → List Byte) (s : Signing) (fs : List (List Byte)) : Signing :=
  fs.foldl (fun s f => (decodeS H s f).1) s

/-- `sign_packet`, HC_dialect.py:212-219: the new buffer. `struct.pack('<BQ', ...)` raises struct.error when the link id or
the timestamp is out of range; `h.update(None)` raises TypeError. -/
def signPacket (H : List Byte → List Byte) (s : Signing) (msgbuf : List Byte) : Signing × Except PyErr (List Byte) :=
  match structPack [.scalar .u8, .scalar .u64] [.int s.linkId, .int s.timestamp] with
  | .error e => (s, .error e)
  | .ok bs =>
    let msgbuf := msgbuf ++ bs.take 7
    match s.secretKey with
    | none => (s, .error .typeError)
    | some key =>
      ({ s with timestamp := s.timestamp + 1 }, .ok (msgbuf ++ (H (key ++ msgbuf)).take 6))

/-- `m.pack(mav)` with the sender's signing state, HC_dialect.py:221-248: the header of protocol version 1.0 has no flags,
so `incompat_flags` is not transmitted. -/
def packMsgS (H : List Byte → List Byte) (s : Signing) (m : MsgClass) (fields : List FieldVal)
    (seq srcSystem srcComponent : Int) : Signing × Except PyErr (List Byte) :=
  match packMsg m fields seq srcSystem srcComponent with
  | .error e => (s, .error e)
  | .ok buf => if s.signOutgoing then signPacket H s buf else (s, .ok buf)

end NR

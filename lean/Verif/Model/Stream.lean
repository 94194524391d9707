import Verif.Model.Mavlink
/-
Model of the stateful part of `class MAVLink`, mavlink_utils/HC_dialect.py:8597-8772: the sender and the stream
parser. The native parser is not used (`native_supported` needs the mavnative package, HC_dialect.py:27-38) and no
callbacks are installed (`set_callback`/`set_send_callback` are never called).
-/
namespace NR
open Dialect

/-- What the stream parser hands out: a decoded message or a `MAVLink_bad_data` (HC_dialect.py:8566-8576). Both carry
the bytes they stand for (`_msgbuf`, read with `get_msgbuf`). -/
inductive Parsed where
  | msg (msgbuf : List Byte) (m : MavMsg)
  | bad (data : List Byte)
  deriving DecidableEq, Repr

/-- `get_msgbuf()` -/
def Parsed.bytes : Parsed → List Byte
  | .msg b _ => b
  | .bad d => d

/-- `get_type() == 'BAD_DATA'` -/
def Parsed.isBad : Parsed → Bool
  | .msg _ _ => false
  | .bad _ => true

/-- Receiving state of a `MAVLink` object, HC_dialect.py:8608-8622. -/
structure Parser where
  buf : List Byte
  bufIndex : Nat
  expectedLength : Nat
  havePrefixError : Bool
  robustParsing : Bool
  totalPacketsReceived : Nat
  totalBytesReceived : Nat
  totalReceiveErrors : Nat
  deriving DecidableEq, Repr

/-- `MAVLink.__init__`, HC_dialect.py:8608-8622, followed by `robust_parsing = robust`. -/
def Parser.init (robust : Bool) : Parser :=
  { buf := [], bufIndex := 0, expectedLength := 6 + 2, havePrefixError := false, robustParsing := robust,
    totalPacketsReceived := 0, totalBytesReceived := 0, totalReceiveErrors := 0 }

/-- `buf_len`, HC_dialect.py:8659-8660 (`buf_index` never exceeds the buffer length). -/
def Parser.bufLen (st : Parser) : Nat := st.buf.length - st.bufIndex

/-- `bytes_needed`, HC_dialect.py:8662-8671. -/
def Parser.bytesNeeded (st : Parser) : Nat :=
  if (st.expectedLength : Int) - st.bufLen ≤ 0 then 1 else st.expectedLength - st.bufLen

/-- HC_dialect.py:8733-8740: `magic`, `incompat_flags` and the new `expected_length`, read when three bytes are
pending. -/
def readHeader3 (headerLen : Nat) (pending : List Byte) : Option (Byte × Byte × Nat) :=
  match pending with
  | magic :: len :: incompat :: _ =>
    some (magic, incompat,
      len.toNat + (if magic = 253 ∧ incompat.toNat % 2 = 1 then 13 else 0) + (headerLen + 2))
  | _ => none

/-- The decoding branch of `__parse_char_legacy`, HC_dialect.py:8741-8758. -/
def parseFrame (st : Parser) (headerLen : Nat) (h3 : Option (Byte × Byte × Nat)) :
    Parser × Except PyErr (Option Parsed) :=
  let mbuf := (st.buf.drop st.bufIndex).take st.expectedLength
  let st := { st with bufIndex := st.bufIndex + st.expectedLength, expectedLength := headerLen + 2 }
  match h3 with
  | none => (st, .error .unboundLocalError)
  | some (magic, incompat, _) =>
    -- incompat_flags & ~MAVLINK_IFLAG_SIGNED
    let res := if magic = 253 ∧ incompat.toNat / 2 ≠ 0 then .error .mavError else decode mbuf
    match res with
    | .ok m => (st, .ok (some (.msg mbuf m)))
    | .error e =>
      if st.robustParsing ∧ e = .mavError then
        ({ st with totalReceiveErrors := st.totalReceiveErrors + 1 }, .ok (some (.bad mbuf)))
      else (st, .error e)

/-- `__parse_char_legacy`, HC_dialect.py:8714-8759. -/
def parseCharLegacy (st : Parser) : Parser × Except PyErr (Option Parsed) :=
  let pending := st.buf.drop st.bufIndex
  let headerLen := if pending.head? = some 253 then 10 else 6
  match pending.head? with
  | some magic =>
    if magic ≠ 254 ∧ magic ≠ 253 then
      let st := { st with bufIndex := st.bufIndex + 1 }
      if st.robustParsing then
        ({ st with expectedLength := headerLen + 2, totalReceiveErrors := st.totalReceiveErrors + 1 },
          .ok (some (.bad [magic])))
      else if st.havePrefixError then (st, .ok none)
      else ({ st with havePrefixError := true, totalReceiveErrors := st.totalReceiveErrors + 1 }, .error .mavError)
    else
      let st := { st with havePrefixError := false }
      let h3 := readHeader3 headerLen pending
      let st : Parser := match h3 with
        | some (_, _, el) => { st with expectedLength := el }
        | none => st
      if st.expectedLength ≥ headerLen + 2 ∧ st.bufLen ≥ st.expectedLength then parseFrame st headerLen h3
      else (st, .ok none)
  | none =>
    let st := { st with havePrefixError := false }
    if st.expectedLength ≥ headerLen + 2 ∧ st.bufLen ≥ st.expectedLength then parseFrame st headerLen none
    else (st, .ok none)

/-- `parse_char`, HC_dialect.py:8683-8712. -/
def parseChar (st : Parser) (c : List Byte) : Parser × Except PyErr (Option Parsed) :=
  let st := { st with buf := st.buf ++ c, totalBytesReceived := st.totalBytesReceived + c.length }
  let (st, r) := parseCharLegacy st
  match r with
  | .error e => (st, .error e)
  | .ok (some m) => ({ st with totalPacketsReceived := st.totalPacketsReceived + 1 }, .ok (some m))
  | .ok none =>
    if st.bufLen = 0 ∧ st.bufIndex ≠ 0 then ({ st with buf := [], bufIndex := 0 }, .ok none) else (st, .ok none)

/-- The `while True` loop of `parse_buffer`, HC_dialect.py:8767-8771; `none` when the bound on the number of rounds
is exhausted. -/
def parseLoop : Nat → Parser → List Parsed → Option (Parser × Except PyErr (Option (List Parsed)))
  | 0, _, _ => none
  | n + 1, st, ret =>
    match parseChar st [] with
    | (st, .error e) => some (st, .error e)
    | (st, .ok none) => some (st, .ok (some ret))
    | (st, .ok (some m)) => parseLoop n st (ret ++ [m])

/-- `parse_buffer`, HC_dialect.py:8761-8772. The loop has no bound in the code; here it is given one round per
pending byte plus one, and `none` would mean that it runs longer (`c14_chunks` shows it never does in robust mode). -/
def parseBuffer (st : Parser) (s : List Byte) : Option (Parser × Except PyErr (Option (List Parsed))) :=
  match parseChar st s with
  | (st, .error e) => some (st, .error e)
  | (st, .ok none) => some (st, .ok none)
  | (st, .ok (some m)) => parseLoop (st.bufLen + 1) st [m]

/-- Sending state of a `MAVLink` object, HC_dialect.py:8597-8637. `file` is the sequence of `write` calls. -/
structure Sender where
  seq : Nat
  srcSystem : Int
  srcComponent : Int
  file : List (List Byte)
  totalPacketsSent : Nat
  totalBytesSent : Nat
  deriving DecidableEq, Repr

/-- `MAVLink.__init__`, HC_dialect.py:8597-8637. -/
def Sender.init (srcSystem srcComponent : Int) : Sender :=
  { seq := 0, srcSystem := srcSystem, srcComponent := srcComponent, file := [], totalPacketsSent := 0,
    totalBytesSent := 0 }

/-- `send`, HC_dialect.py:8649-8657, with `MAVLink_message.pack`. `file.write` is assumed to succeed. -/
def send (st : Sender) (m : MsgClass) (fields : List FieldVal) : Sender × Except PyErr Unit :=
  match packMsg m fields st.seq st.srcSystem st.srcComponent with
  | .error e => (st, .error e)
  | .ok buf => ({ st with
      file := st.file ++ [buf], seq := (st.seq + 1) % 256, totalPacketsSent := st.totalPacketsSent + 1,
      totalBytesSent := st.totalBytesSent + buf.length }, .ok ())

end NR

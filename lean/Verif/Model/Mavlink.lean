import Verif.Model.Meta
import Verif.Model.Crc
/-
Model of the MAVLink packer and decoder, mavlink_utils/HC_dialect.py.

`WIRE_PROTOCOL_VERSION` is '1.0' (HC_dialect.py:16), no signing key is configured (`MAVLink(1)`,
protocol_meta.py:62; `MAVLinkSigning.__init__`, HC_dialect.py:8584-8595) and the environment variable
`MAV_IGNORE_CRC` is not set (HC_dialect.py:44): the branches for the other settings are not modelled.
-/
namespace NR
open Dialect

/-- Value of a message attribute: a number or bytes, a tuple/list of numbers, or a `str`
(represented by its UTF-8 encoding). -/
inductive FieldVal where
  | num (v : Val)
  | arr (vs : List Val)
  | text (utf8 : List Byte)
  deriving DecidableEq, Repr

/-- A decoded message: `_header` fields, class and attributes in the order of `fieldnames`
(HC_dialect.py:86-95, 8945-8955). -/
structure MavMsg where
  cls : MsgClass
  msgId : Nat
  incompat : Nat
  compat : Nat
  mlen : Nat
  seq : Nat
  srcSystem : Nat
  srcComponent : Nat
  fields : List FieldVal
  payload : List Byte
  crc : Nat
  deriving DecidableEq, Repr

/-- Strict UTF-8 validity of a byte string, as checked by `bytes.decode("utf-8")` (standard library;
used by `to_string`, HC_dialect.py:61-66): well-formed sequences of the Unicode standard, table 3-7. -/
def utf8Valid : List Byte → Bool
  | [] => true
  | a :: rest =>
    let a := a.toNat
    if a < 0x80 then utf8Valid rest
    else if 0xC2 ≤ a ∧ a ≤ 0xDF then
      match rest with
      | b :: rest => cont b 0x80 0xBF && utf8Valid rest
      | _ => false
    else if 0xE0 ≤ a ∧ a ≤ 0xEF then
      match rest with
      | b :: c :: rest =>
        cont b (if a = 0xE0 then 0xA0 else 0x80) (if a = 0xED then 0x9F else 0xBF) && cont c 0x80 0xBF
          && utf8Valid rest
      | _ => false
    else if 0xF0 ≤ a ∧ a ≤ 0xF4 then
      match rest with
      | b :: c :: d :: rest =>
        cont b (if a = 0xF0 then 0x90 else 0x80) (if a = 0xF4 then 0x8F else 0xBF) && cont c 0x80 0xBF
          && cont d 0x80 0xBF && utf8Valid rest
      | _ => false
    else false
where
  cont (b : Byte) (lo hi : Nat) : Bool := decide (lo ≤ b.toNat) && decide (b.toNat ≤ hi)

/-- The UTF-8 bytes of `'_XXX'`. -/
def xxxText : List Byte := [0x5F, 0x58, 0x58, 0x58]

/-- `to_string` on a value of a `char` field, HC_dialect.py:61-83. For `bytes` the first attempt decodes
UTF-8; otherwise (and for any non-bytes value) all later attempts fail and `'_XXX'` is returned. -/
def toStringPy : FieldVal → List Byte
  | .num (.raw bs) => if utf8Valid bs then bs else xxxText
  | .text bs => bs
  | _ => xxxText

/-- `str(MAVString(s))`, HC_dialect.py:8556-8564: cut at the first NUL. -/
def mavString (s : List Byte) : List Byte := s.takeWhile (· ≠ 0)

/-- Reordering of the unpacked tuple into `fieldnames` order, HC_dialect.py:8917-8936. -/
def reorder (m : MsgClass) (t : List Val) : Except PyErr (List FieldVal) :=
  if m.lengths.sum = m.lengths.length then
    -- message has no (numeric) arrays: tlist[i] = t[order_map[i]] for i in range(len(tlist))
    (List.range t.length).mapM fun i =>
      match m.orders[i]? with
      | none => .error .indexError
      | some o => match t[o]? with
        | none => .error .indexError
        | some v => .ok (.num v)
  else
    m.orders.mapM fun order =>
      match m.lengths[order]? with
      | none => .error .indexError
      | some L =>
        let tip := (m.lengths.take order).sum
        match t[tip]? with
        | none => .error .indexError
        | some field => if L = 1 then .ok (.num field) else .ok (.arr (pySlice t tip (tip + L)))

/-- String termination loop, HC_dialect.py:8938-8943. -/
def terminateStrings (m : MsgClass) (tlist : List FieldVal) : Except PyErr (List FieldVal) :=
  (List.range tlist.length).mapM fun i =>
    match m.fieldtypes[i]? with
    | none => .error .indexError
    | some t =>
      let v := tlist.getD i (.num (.int 0))
      if t = CType.char then .ok (.text (mavString (toStringPy v))) else .ok v

/-- `MAVLink.decode` after the header has been unpacked, HC_dialect.py:8842-8955. `headerlen` is 6 or 10. -/
def decodeBody (msgbuf : List Byte) (headerlen magic mlen incompat compat seq srcSystem srcComponent msgId : Nat) :
    Except PyErr MavMsg :=
  let sigLen := if incompat % 2 = 1 then 13 else 0
  let n := msgbuf.length
  if magic ≠ 254 ∧ magic ≠ 253 then .error .mavError
  else if (mlen : Int) ≠ (n : Int) - (headerlen + 2 + sigLen : Nat) then .error .mavError
  else match lookupMsg msgId with
    | none => .error .mavError
    | some type =>
      -- here n = mlen + headerlen + 2 + sigLen, so the negative slices are ordinary ones
      let body := n - (2 + sigLen)
      let crcBytes := (msgbuf.drop body).take 2
      if crcBytes.length ≠ 2 then .error .mavError
      else
        let crc := leNat crcBytes
        let crcbuf := pySlice msgbuf 1 body ++ [BitVec.ofNat 8 type.crcExtra]
        if crc ≠ (x25 crcbuf).toNat then .error .mavError
        else match structFmt type.format with
          | none => .error .mavError
          | some fmt =>
            let csize := calcsize fmt
            let mbuf := pySlice msgbuf headerlen body
            let mbuf := mbuf ++ List.replicate (csize - mbuf.length) 0
            let mbuf := mbuf.take csize
            match structUnpack fmt mbuf with
            | .error _ => .error .mavError
            | .ok t => do
              let tlist ← reorder type t
              let tlist ← terminateStrings type tlist
              if tlist.length ≠ type.fieldnames.length then .error .mavError
              else .ok {
                cls := type, msgId := msgId, incompat := incompat, compat := compat, mlen := mlen,
                seq := seq, srcSystem := srcSystem, srcComponent := srcComponent, fields := tlist,
                payload := pySlice msgbuf 6 body, crc := crc }

/-- `MAVLink.decode`, HC_dialect.py:8821-8955. -/
def decode (msgbuf : List Byte) : Except PyErr MavMsg :=
  match msgbuf with
  | [] => .error .indexError
  | b0 :: _ =>
    if b0 ≠ 254 then
      match msgbuf with
      | magic :: mlen :: inc :: comp :: seq :: sys :: cmp :: low0 :: low1 :: high :: _ =>
        decodeBody msgbuf 10 magic.toNat mlen.toNat inc.toNat comp.toNat seq.toNat sys.toNat cmp.toNat
          ((low0.toNat + 256 * low1.toNat) ||| (high.toNat <<< 16))
      | _ => .error .mavError
    else
      match msgbuf with
      | magic :: mlen :: seq :: sys :: cmp :: id :: _ =>
        decodeBody msgbuf 6 magic.toNat mlen.toNat 0 0 seq.toNat sys.toNat cmp.toNat id.toNat
      | _ => .error .mavError

/-- Argument of `struct.pack` when the attribute is passed whole (`self.f`). -/
def FieldVal.asArg : FieldVal → Except PyErr Val
  | .num v => .ok v
  | _ => .error .structError

/-- `self.f[i]` (as in `self.f[0], self.f[1], ...`). -/
def FieldVal.index (fv : FieldVal) (i : Nat) : Except PyErr Val :=
  match fv with
  | .arr vs => match vs[i]? with | some v => .ok v | none => .error .indexError
  | .num (.raw bs) => match bs[i]? with | some b => .ok (.int b.toNat) | none => .error .indexError
  | .num _ => .error .typeError
  | .text _ => .error .structError

/-- Arguments contributed by the `j`-th wire field to `struct.pack` in the message class's `pack`
method (e.g. HC_dialect.py:2227-2228); which attributes are indexed is read off the class text, see
Dialect.lean. A missing attribute is an `AttributeError`. -/
def packField (m : MsgClass) (fields : List FieldVal) (j : Nat) : Except PyErr (List Val) :=
  let nm := m.orderedFieldnames.getD j ""
  match (m.fieldnames.zip fields).lookup nm with
  | none => .error .attributeError
  | some fv =>
    if m.arrayLengths.getD j 0 = 0 ∨ (m.fieldnames.zip m.fieldtypes).lookup nm = some .char then do
      let v ← fv.asArg
      .ok [v]
    else (List.range (m.arrayLengths.getD j 0)).mapM fv.index

/-- `struct.pack(fmt, ...)` in the message class's `pack` method. -/
def packPayload (m : MsgClass) (fields : List FieldVal) : Except PyErr (List Byte) := do
  let args ← (List.range m.orderedFieldnames.length).mapM (packField m fields)
  match structFmt m.format with
  | none => .error .structError
  | some fmt => structPack fmt args.flatten

/-- `MAVLink_message.pack` for protocol version 1.0 without signing, HC_dialect.py:221-248, with
`MAVLink_header.pack`, HC_dialect.py:97-104. -/
def packFrame (msgId : Nat) (crcExtra : Nat) (payload : List Byte) (seq srcSystem srcComponent : Int) :
    Except PyErr (List Byte) := do
  let hdr ← structPack (List.replicate 6 (.scalar .u8))
    [.int 254, .int payload.length, .int seq, .int srcSystem, .int srcComponent, .int msgId]
  let msgbuf := hdr ++ payload
  let crc := x25 (msgbuf.drop 1 ++ [BitVec.ofNat 8 crcExtra])
  .ok (msgbuf ++ leBytes 2 crc.toNat)

/-- `m.pack(mav)` for a message object of class `m` with the given attributes. -/
def packMsg (m : MsgClass) (fields : List FieldVal) (seq srcSystem srcComponent : Int) :
    Except PyErr (List Byte) := do
  let payload ← packPayload m fields
  packFrame m.id m.crcExtra payload seq srcSystem srcComponent

end NR

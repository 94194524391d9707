import Verif.Model.MinimalTable
import Verif.Model.Signing
/-
Model of calls to the `*_encode` and `*_send` methods of the minimal dialect, mavlink_utils/minimal_dialect.py:2684-2868, and of its
signature check. All else in these paths is the text of HC_dialect.py on other lines.
-/
namespace NR.Minimal
open NR

/-- `<class>(*vals)`, minimal_dialect.py:2040-2269. -/
def construct (cls : String) (vals : List FieldVal) : Except PyErr MsgInst :=
  match inits.find? (fun i => i.cls = cls) with
  | none => .error .nameError
  | some i => do
    let env ← bindCall i.params [] vals []
    let attrs ← evalNames env (i.assigns.map Prod.snd)
    .ok ⟨i.msg, (i.assigns.map Prod.fst).zip attrs⟩

/-- `mav.<name>(*pos, **kw)` for an `*_encode` method. -/
def encodeNamed (name : String) (pos : List FieldVal) (kw : List (String × FieldVal)) : Except PyErr MsgInst :=
  match encodeDefs.find? (fun d => d.name = name) with
  | none => .error .attributeError
  | some d => do
    let env ← bindCall d.params (defaultVals d.defaults) pos kw
    let vals ← evalNames env d.args
    construct d.callee vals

/-- `mav.<name>(*pos, **kw)` for a `*_send` method; `send` is minimal_dialect.py:2380-2388. -/
def sendNamed (st : Sender) (name : String) (pos : List FieldVal) (kw : List (String × FieldVal)) :
    Sender × Except PyErr Unit :=
  match sendDefs.find? (fun d => d.name = name) with
  | none => (st, .error .attributeError)
  | some d =>
    let msg := do
      let env ← bindCall d.params (defaultVals d.defaults) pos kw
      let vals ← evalNames env d.args
      let o ← encodeNamed d.encode vals []
      let _ ← evalNames env ["force_mavlink1"]
      let fields ← o.fields
      .ok (o.cls, fields)
    match msg with
    | .error e => (st, .error e)
    | .ok (m, fields) => send st m fields

/-- What is handed to `decode`: a `bytearray`, or an `array.array`, which the stream parser makes (minimal_dialect.py:2474). -/
inductive Container where
  | bytearray
  | array
  deriving DecidableEq

/-- minimal_dialect.py:2505-2547 `check_signature`: as in HC_dialect.py, but for an array `tostring` is called without the fall-back to
`tobytes`. `tostring` is whether arrays have that method: it was removed in Python 3.9. -/
def checkSignature (H : List Byte → List Byte) (tostring : Bool) (c : Container) (key : List Byte) (s : Signing) (msgbuf : List Byte)
    (srcSystem srcComponent : Nat) : Signing × Except PyErr Bool :=
  if c = .array ∧ tostring = false then (s, .error .attributeError)
  else
    let (s, b) := NR.checkSignature H key s msgbuf srcSystem srcComponent
    (s, .ok b)

/-- The signature branch of `decode`, minimal_dialect.py:2595-2623. -/
def signatureGate (H : List Byte → List Byte) (tostring : Bool) (c : Container) (s : Signing) (msgbuf : List Byte)
    (sigLen srcSystem srcComponent msgId : Nat) : Signing × Except PyErr Bool :=
  let s := if sigLen = 13 then { s with sigCount := s.sigCount + 1 } else s
  match s.secretKey with
  | none => (s, .ok false)
  | some key =>
    if sigLen = 13 then
      match checkSignature H tostring c key s msgbuf srcSystem srcComponent with
      | (s, .error e) => (s, .error e)
      | (s, .ok sigOk) =>
        if sigOk then ({ s with goodsigCount := s.goodsigCount + 1 }, .ok true)
        else
          let (s, accept) := askUnsigned { s with badsigCount := s.badsigCount + 1 } msgId
          if accept then (s, .ok false) else (s, .error .mavError)
    else
      let (s, accept) := askUnsigned s msgId
      if accept then (s, .ok false) else (s, .error .mavError)

/-- `MAVLink.decode` after the header has been unpacked, with the signature branch, minimal_dialect.py:2568-2683. -/
def decodeBodyS (H : List Byte → List Byte) (tostring : Bool) (c : Container) (s : Signing) (msgbuf : List Byte)
    (headerlen magic mlen incompat compat seq srcSystem srcComponent msgId : Nat) : Signing × Except PyErr SignedMsg :=
  let sigLen := if incompat % 2 = 1 then 13 else 0
  let n := msgbuf.length
  if magic ≠ 254 ∧ magic ≠ 253 then (s, .error .mavError)
  else if (mlen : Int) ≠ (n : Int) - (headerlen + 2 + sigLen : Nat) then (s, .error .mavError)
  else match lookupMsg msgId with
    | none => (s, .error .mavError)
    | some type =>
      let body := n - (2 + sigLen)
      let crcBytes := (msgbuf.drop body).take 2
      if crcBytes.length ≠ 2 then (s, .error .mavError)
      else
        let crc := leNat crcBytes
        let crcbuf := pySlice msgbuf 1 body ++ [BitVec.ofNat 8 type.crcExtra]
        if crc ≠ (x25 crcbuf).toNat then (s, .error .mavError)
        else match signatureGate H tostring c s msgbuf sigLen srcSystem srcComponent msgId with
          | (s, .error e) => (s, .error e)
          | (s, .ok sigOk) =>
            match decodePayload type msgbuf headerlen body mlen incompat compat seq srcSystem srcComponent msgId crc with
            | .error e => (s, .error e)
            | .ok m => (s, .ok ⟨m, sigOk, if sigOk then some (msgbuf.getD (n - 13) 0).toNat else none⟩)

/-- `MAVLink.decode` with its signing state, minimal_dialect.py:2549-2683. -/
def decodeS (H : List Byte → List Byte) (tostring : Bool) (c : Container) (s : Signing) (msgbuf : List Byte) :
    Signing × Except PyErr SignedMsg :=
  match msgbuf with
  | [] => (s, .error .indexError)
  | b0 :: _ =>
    if b0 ≠ 254 then
      match msgbuf with
      | magic :: mlen :: inc :: comp :: seq :: sys :: cmp :: low0 :: low1 :: high :: _ =>
        decodeBodyS H tostring c s msgbuf 10 magic.toNat mlen.toNat inc.toNat comp.toNat seq.toNat sys.toNat cmp.toNat
          ((low0.toNat + 256 * low1.toNat) ||| (high.toNat <<< 16))
      | _ => (s, .error .mavError)
    else
      match msgbuf with
      | magic :: mlen :: seq :: sys :: cmp :: id :: _ =>
        decodeBodyS H tostring c s msgbuf 6 magic.toNat mlen.toNat 0 0 seq.toNat sys.toNat cmp.toNat id.toNat
      | _ => (s, .error .mavError)

end NR.Minimal

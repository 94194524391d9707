import Verif.Model.Stream
/-
Model of a `MAVLink` object with callbacks set (`set_callback`, `set_send_callback`, mavlink_utils/HC_dialect.py:8639-8647) and a file whose
`write` may raise. A callback is any function of a state of its own and the message; it may raise, and does not touch the `MAVLink` object.
-/
namespace NR

/-- A callback for received items, `None` if not set. -/
abbrev OnItem (κ : Type) := Option (κ → Parsed → κ × Except PyErr Unit)

/-- `parse_char` with its call of `__callbacks`, HC_dialect.py:8678-8712: the callback is called after the item is taken from the buffer and
counted, and before it is returned. -/
def parseCharC {κ : Type} (cb : OnItem κ) (st : Parser) (k : κ) (c : List Byte) : Parser × κ × Except PyErr (Option Parsed) :=
  match parseChar st c with
  | (st, .error e) => (st, k, .error e)
  | (st, .ok none) => (st, k, .ok none)
  | (st, .ok (some m)) => match cb with
    | none => (st, k, .ok (some m))
    | some f => match f k m with
      | (k, .error e) => (st, k, .error e)
      | (k, .ok ()) => (st, k, .ok (some m))

/-- The loop of `parse_buffer`, HC_dialect.py:8767-8771; `none` when the bound on the number of rounds is exhausted. -/
def parseLoopC {κ : Type} (cb : OnItem κ) : Nat → Parser → κ → List Parsed → Option (Parser × κ × Except PyErr (Option (List Parsed)))
  | 0, _, _, _ => none
  | n + 1, st, k, ret =>
    match parseCharC cb st k [] with
    | (st, k, .error e) => some (st, k, .error e)
    | (st, k, .ok none) => some (st, k, .ok (some ret))
    | (st, k, .ok (some m)) => parseLoopC cb n st k (ret ++ [m])

/-- `parse_buffer`, HC_dialect.py:8761-8772; the bound on the rounds is that of `parseBuffer`. -/
def parseBufferC {κ : Type} (cb : OnItem κ) (st : Parser) (k : κ) (s : List Byte) :
    Option (Parser × κ × Except PyErr (Option (List Parsed))) :=
  match parseCharC cb st k s with
  | (st, k, .error e) => some (st, k, .error e)
  | (st, k, .ok none) => some (st, k, .ok none)
  | (st, k, .ok (some m)) => parseLoopC cb (st.bufLen + 1) st k [m]

/-- Sending state, HC_dialect.py:8597-8637, without the file. -/
structure SenderC where
  seq : Nat
  srcSystem : Int
  srcComponent : Int
  totalPacketsSent : Nat
  totalBytesSent : Nat
  deriving DecidableEq, Repr

/-- `send`, HC_dialect.py:8649-8657: `write` is the `write` of the file, with the state `w` of the line, `cb` the callback. -/
def sendC {ω κ : Type} (write : ω → List Byte → ω × Except PyErr Unit) (cb : Option (κ → MsgClass × List FieldVal → κ × Except PyErr Unit))
    (st : SenderC) (w : ω) (k : κ) (m : MsgClass) (fields : List FieldVal) : SenderC × ω × κ × Except PyErr Unit :=
  match packMsg m fields st.seq st.srcSystem st.srcComponent with
  | .error e => (st, w, k, .error e)
  | .ok buf => match write w buf with
    | (w, .error e) => (st, w, k, .error e)
    | (w, .ok ()) =>
      let st := { st with
        seq := (st.seq + 1) % 256, totalPacketsSent := st.totalPacketsSent + 1, totalBytesSent := st.totalBytesSent + buf.length }
      match cb with
      | none => (st, w, k, .ok ())
      | some f => match f k (m, fields) with
        | (k, r) => (st, w, k, r)

end NR

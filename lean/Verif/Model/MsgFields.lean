import Verif.Model.Segmentation
import Verif.Model.Mavlink
/-
Model of `BufferSegmentation.get_msg_fields` and of `BufferStructure`, inference/buffer_segmentation.py.
-/
namespace NR
open Dialect

/-- UTF-8 bytes of an ASCII string (all names in the dialect are ASCII). -/
def strBytes (s : String) : List Byte := s.toList.map fun c => BitVec.ofNat 8 c.toNat

/-- `getattr(msg, field)` for a message field. -/
def MavMsg.attr (msg : MavMsg) (field : String) : Option FieldVal := (msg.cls.fieldnames.zip msg.fields).lookup field

/-- `parsed_msg.name`: the class attribute, except that the message classes with a field called `name` (ids 250, 251,
252) assign that field's text to the instance attribute `name`, HC_dialect.py `self.name = name`. Only `char` fields
are called `name` in this dialect. -/
def MavMsg.pyName (msg : MavMsg) : List Byte :=
  match msg.attr "name" with
  | some (.text t) => t
  | _ => strBytes msg.cls.name

/-- `f'{parsed_msg.name}_{field}'`, buffer_segmentation.py:208,210. -/
def fieldKey (msg : MavMsg) (field : String) : List Byte := msg.pyName ++ [0x5F] ++ strBytes field

/-- `list.index`. -/
def pyIndex {α : Type _} [BEq α] (l : List α) (x : α) : Except PyErr Nat :=
  if l.contains x then .ok (l.idxOf x) else .error .valueError

/-- `format_attr`, HC_dialect.py:120-125. -/
def formatAttr (msg : MavMsg) (field : String) : Except PyErr FieldVal :=
  match msg.attr field with
  | none => .error .attributeError
  | some (.num (.raw bs)) => .ok (.text ((toStringPy (.num (.raw bs))).reverse.dropWhile (· = 0)).reverse)
  | some v => .ok v

/-- `MAVLink_header.pack`, HC_dialect.py:97-104 (protocol version 1.0). -/
def headerPack (msg : MavMsg) : Except PyErr (List Byte) :=
  structPack (List.replicate 6 (.scalar .u8))
    [.int 254, .int msg.mlen, .int msg.seq, .int msg.srcSystem, .int msg.srcComponent, .int msg.msgId]

/-- An element of the buffer description: packed header, `(field name, type)`, or `"crc"`. -/
inductive DescItem where
  | header (bytes : List Byte)
  | field (name : List Byte) (type : CType)
  | crc
  deriving DecidableEq, Repr

/-- Entries produced for one message by the inner loop, buffer_segmentation.py:206-211: key, value and type. -/
def msgEntries (msg : MavMsg) : Except PyErr (List (List Byte × FieldVal × CType)) :=
  (List.range msg.cls.orderedFieldnames.length).mapM fun idx => do
    let typeIdx ← pyIndex msg.cls.orders idx
    let v ← formatAttr msg (msg.cls.orderedFieldnames.getD idx "")
    match msg.cls.fieldtypes[typeIdx]? with
    | none => .error .indexError
    | some t => .ok (fieldKey msg (msg.cls.orderedFieldnames.getD idx ""), v, t)

/-- One round of the outer loop, buffer_segmentation.py:202-212. -/
def msgFieldsStep (buffer : List Byte) (acc : List (List Byte × FieldVal × CType) × List DescItem) (r : Nat × Nat) :
    Except PyErr (List (List Byte × FieldVal × CType) × List DescItem) :=
  match payloadLen r.2 with
  | none => .error .keyError
  | some L => do
    let msg ← decode (pySlice buffer r.1 (r.1 + L + protocolOverhead))
    let hdr ← headerPack msg
    let es ← msgEntries msg
    .ok (es.foldl (fun d e => dictSet d e.1 e.2) acc.1,
      acc.2 ++ ([.header hdr] ++ es.map (fun e => .field e.1 e.2.2) ++ [.crc]))

/-- `get_msg_fields`, buffer_segmentation.py:192-214. `none` is the bare `{}` returned when nothing was found. -/
def getMsgFields {ρ : Type _} (parser : List Byte → Except PyErr ρ) (buffer : List Byte) :
    Except PyErr (Option (List (List Byte × FieldVal × CType) × List DescItem)) := do
  let st ← segmentBuffer parser buffer
  if st.struct = [] then .ok none
  else do
    let r ← st.struct.foldlM (msgFieldsStep buffer) ([], [])
    .ok (some r)

/-- `BufferStructure`, buffer_segmentation.py:22-33 (the attributes `field_models` and `byte_structure` are only
stored). `structure` is the dict as its list of items. -/
structure BufferStructure where
  «structure» : List (Nat × Nat)
  receptionCount : Nat
  receivedBuffers : List (List Byte)
  deriving DecidableEq, Repr

/-- `BufferStructure.__init__`, buffer_segmentation.py:25-33. -/
def BufferStructure.new (msgs : List (Nat × Nat)) : BufferStructure := ⟨msgs, 0, []⟩

/-- `adheres_to_structure`, buffer_segmentation.py:60-69. -/
def adheres (buffer : List Byte) : List (Nat × Nat) → Except PyErr Bool
  | [] => .ok true
  | (idx, msgId) :: rest => do
    let hdr ← FrameHeader.fromBuffer (pySlice buffer idx (idx + headerLen))
    if hdr.msgId ≠ msgId then .ok false else adheres buffer rest

/-- `register_buffer`, buffer_segmentation.py:41-51. -/
def BufferStructure.registerBuffer (s : BufferStructure) (buffer : List Byte) : BufferStructure × Except PyErr Unit :=
  match adheres buffer s.structure with
  | .error e => (s, .error e)
  | .ok true => ({ s with receivedBuffers := s.receivedBuffers ++ [buffer], receptionCount := s.receptionCount + 1 }, .ok ())
  | .ok false => (s, .error .valueError)

/-- Equality of two dicts given by their items (keys are unique): same items in any order. -/
def dictEq (a b : List (Nat × Nat)) : Bool :=
  a.length == b.length && a.all fun (k, v) => b.lookup k == some v

/-- `BufferStructure.__eq__`, buffer_segmentation.py:35-39, with another `BufferStructure` or a dict. -/
def BufferStructure.eqStructure (s t : BufferStructure) : Bool := dictEq s.structure t.structure

/-- `get_buffer_structure`, buffer_segmentation.py:183-190. -/
def getBufferStructure {ρ : Type _} (parser : List Byte → Except PyErr ρ) (buffer : List Byte) :
    Except PyErr BufferStructure := do
  let st ← segmentBuffer parser buffer
  .ok (BufferStructure.new st.struct)

end NR

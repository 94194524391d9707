import Verif.Model.BufferModel
/-
Model of `BufferModel.save` and `BufferModel.load`, inference/statistical_models.py:290-319.

Simplifications: the JSON text is identified with the value `json.load` reads back from what `json.dump` wrote (numbers
and strings come back unchanged, tuples as lists, keys sorted); the file itself is not modelled.
-/
namespace NR

/-- A JSON value. Numbers are integers, floats coming from a telemetry field, or statistics; `text` is a string given
by its bytes (names of fields in a buffer description). -/
inductive Json (μ : Type) where
  | null
  | bool (b : Bool)
  | int (i : Int)
  | flt (b : BitVec 32)
  | stat (x : μ)
  | str (s : String)
  | text (bs : List Byte)
  | arr (l : List (Json μ))
  | obj (l : List (String × Json μ))

/-- A hexadecimal digit. -/
def hexDigit (n : Nat) : Char := "0123456789abcdef".toList.getD n '0'

/-- `bytes.hex()`. -/
def hexBytes (bs : List Byte) : List Char := bs.flatMap fun b => [hexDigit (b.toNat / 16), hexDigit (b.toNat % 16)]

/-- Value of a hexadecimal digit. -/
def hexVal (c : Char) : Option Nat :=
  if '0' ≤ c ∧ c ≤ '9' then some (c.toNat - '0'.toNat)
  else if 'a' ≤ c ∧ c ≤ 'f' then some (c.toNat - 'a'.toNat + 10)
  else if 'A' ≤ c ∧ c ≤ 'F' then some (c.toNat - 'A'.toNat + 10)
  else none

/-- `bytes.fromhex`: pairs of digits, white space allowed between bytes; otherwise a ValueError. -/
def fromHex : List Char → Except PyErr (List Byte)
  | [] => .ok []
  | [c] => if c.isWhitespace then .ok [] else .error .valueError
  | a :: b :: cs =>
    if a.isWhitespace then fromHex (b :: cs)
    else match hexVal a, hexVal b with
      | some x, some y => (fromHex cs).map (BitVec.ofNat 8 (16 * x + y) :: ·)
      | _, _ => .error .valueError

/-- `sort_keys=True`. -/
def sortKeys {α : Type} (l : List (String × α)) : List (String × α) := l.mergeSort fun a b => decide (a.1 ≤ b.1)

variable {μ : Type} (O : StatOps Val μ)

/-- A sample in JSON (`default=lambda o: o.hex() if isinstance(o, bytes)`). -/
def sampleJson : Val → Json μ
  | .int i => .int i
  | .flt b => .flt b
  | .raw bs => .str (String.ofList (hexBytes bs))

/-- An optional integer. -/
def optJson : Option Nat → Json μ
  | none => .null
  | some n => .int n

/-- `o.__dict__` of a field model, statistical_models.py:33-51. -/
def fieldJson (m : FieldModel Val μ) : Json μ :=
  .obj (sortKeys [("name", .str m.name), ("field_type", .str m.fieldType.cname), ("field_len", .int m.fieldType.size),
    ("_mean", .stat m.mean), ("_std", .stat m.std), ("samples", .arr (m.samples.map sampleJson)),
    ("_up2date", .bool m.up2date), ("window_size", optJson m.windowSize), ("int_type", .bool m.fieldType.intType),
    ("signed", .bool m.fieldType.signed)])

/-- An item of the buffer description. -/
def descJson : DescItem → Json μ
  | .header b => .str (String.ofList (hexBytes b))
  | .field n t => .arr [.text n, .str t.cname]
  | .crc => .str "crc"

/-- The buffer description, or `None`. -/
def descriptionJson : Option (List DescItem) → Json μ
  | none => .null
  | some d => .arr (d.map descJson)

/-- The loop calling `_update` on every field model, statistical_models.py:291-292. -/
def updateAll : List (String × FieldModel Val μ) → List (String × FieldModel Val μ) × Except PyErr Unit
  | [] => ([], .ok ())
  | (k, m) :: rest =>
    match m.update O with
    | (m', .error e) => ((k, m') :: rest, .error e)
    | (m', .ok ()) =>
      let (rest', r) := updateAll rest
      ((k, m') :: rest', r)

/-- `save`, statistical_models.py:290-296: the state of the model afterwards and the JSON written, or the exception. -/
def BufferModel.save (bm : BufferModel μ) : BufferModel μ × Except PyErr (Json μ) :=
  match updateAll O bm.models with
  | (ms, .error e) => ({ bm with models := ms }, .error e)
  | (ms, .ok ()) => ({ bm with models := ms },
      .ok (.obj (sortKeys [("field_models", .obj (sortKeys (ms.map fun p => (p.1, fieldJson p.2)))),
        ("buffer_description", descriptionJson bm.description),
        ("window_size", optJson bm.windowSize), ("model_size", .int bm.modelSize)])))

/-- `vals[key]`: only a dict has such items. -/
def Json.item (j : Json μ) (key : String) : Except PyErr (Json μ) :=
  match j with
  | .obj l => match l.lookup key with
    | some v => .ok v
    | none => .error .keyError
  | _ => .error .typeError

/-- `data.get(key)`: `None` if there is no such key; only a dict has this method. -/
def Json.get (j : Json μ) (key : String) : Except PyErr (Json μ) :=
  match j with
  | .obj l => .ok ((l.lookup key).getD .null)
  | _ => .error .attributeError

/-- A loaded sample. Simplification: only numbers (a field model with `bytes` samples cannot be saved, as `norm.fit`
raises on them). -/
def loadSample : Json μ → Except PyErr Val
  | .int i => .ok (.int i)
  | .flt b => .ok (.flt b)
  | _ => .error .typeError

/-- A loaded window or model size. -/
def loadOpt : Json μ → Except PyErr (Option Nat)
  | .null => .ok none
  | .int i => .ok (some i.toNat)
  | _ => .error .typeError

/-- A loaded list. -/
def loadArr : Json μ → Except PyErr (List (Json μ))
  | .arr l => .ok l
  | _ => .error .typeError

/-- A loaded string. -/
def loadStr : Json μ → Except PyErr String
  | .str s => .ok s
  | _ => .error .typeError

/-- One round of the loop over the saved field models, statistical_models.py:307-311. -/
def loadField (ms : List (String × FieldModel Val μ)) (p : String × Json μ) :
    Except PyErr (List (String × FieldModel Val μ)) := do
  let ty ← loadStr (← p.2.item "field_type")
  let w ← loadOpt (← p.2.item "window_size")
  let m ← FieldModel.new O p.1 ty w
  let samples ← (← loadArr (← p.2.item "samples")).mapM loadSample
  let m := m.addSample (.many samples)
  let (m', r) := m.update O
  r
  .ok (dictSet ms p.1 m')

/-- An item of the loaded buffer description, statistical_models.py:312-316: strings other than 'crc' are headers in
hexadecimal; a list is a pair of a field name and a type. -/
def loadDesc : Json μ → Except PyErr DescItem
  | .str s => if s = "crc" then .ok .crc else (fromHex s.toList).map .header
  | .arr [.text n, .str ty] =>
    match typeOfName ty with
    | some t => .ok (.field n t)
    | none => .error .valueError
  | _ => .error .typeError

/-- `models.items()`. -/
def loadItems : Json μ → Except PyErr (List (String × Json μ))
  | .obj l => .ok l
  | _ => .error .attributeError

/-- Restoring the description, statistical_models.py:312-317. -/
def loadDescription (obj : BufferModel μ) : Json μ → Except PyErr (BufferModel μ)
  | .null => .ok obj
  | .arr l => do
    let d ← l.mapM loadDesc
    .ok (obj.setDescription d)
  | _ => .error .typeError

/-- `load`, statistical_models.py:298-319. Simplification: a window or model size that is neither a number nor `None` is a TypeError here (the
code would keep it), and a model size `None` is 0 (Model/UnsizedModel.lean and C142 keep it apart). -/
def BufferModel.load (data : Json μ) : Except PyErr (BufferModel μ) := do
  let models ← data.get "field_models"
  let desc ← data.get "buffer_description"
  let w ← data.get "window_size"
  let size ← data.get "model_size"
  let items ← loadItems models
  let ms ← items.foldlM (loadField O) []
  let obj ← loadDescription ⟨ms, none, 0, none, none⟩ desc
  let w ← loadOpt w
  let size ← loadOpt size
  .ok { obj with
    windowSize := w
    modelSize := size.getD 0 }

end NR

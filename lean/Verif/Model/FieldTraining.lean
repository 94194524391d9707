import Verif.Model.BufferModel
import Verif.Model.MsgFields
/-
Model of training a buffer model field by field, scripts/buffer_segmentation_example.py:18-21 and, commented out there as the other way to train, 48-52.
-/
namespace NR

/-- A key of the dictionary of `get_msg_fields` as the name given to `add_sample`. Simplification: text is kept as UTF-8 bytes in the model of
`get_msg_fields`; other bytes than ASCII become one character each. -/
def keyString (k : List Byte) : String := String.ofList (k.map fun b => Char.ofNat b.toNat)

/-- `vals[0]` as a sample. Simplification: of an array, which `add_sample` would spread, the first entry; the theorems are about buffers without such messages. -/
def sampleOf : FieldVal → Val
  | .num v => v
  | .text t => .raw t
  | .arr vs => vs.headD (.int 0)

variable {μ : Type} (O : StatOps Val μ)

/-- One buffer, buffer_segmentation_example.py:49-52 (and 18-21): `get_msg_fields` returns only an empty dictionary when nothing is found,
which cannot be unpacked into two names. -/
def trainFields (bm : BufferModel μ) (buf : List Byte) : BufferModel μ × Except PyErr Unit :=
  match getMsgFields decode buf with
  | .error e => (bm, .error e)
  | .ok none => (bm, .error .valueError)
  | .ok (some (fields, _)) => bm.addSamples O (fields.map fun e => (keyString e.1, sampleOf e.2.1, e.2.2))

/-- The loop over the buffers, buffer_segmentation_example.py:48-52; an exception ends it. -/
def trainAll (bm : BufferModel μ) : List (List Byte) → BufferModel μ × Except PyErr Unit
  | [] => (bm, .ok ())
  | b :: bs =>
    match trainFields O bm b with
    | (bm', .error e) => (bm', .error e)
    | (bm', .ok ()) => trainAll bm' bs

end NR

import Verif.Model.FieldModel
import Verif.Model.MsgFields
/-
Model of `BufferModel`, inference/statistical_models.py:137-377.
-/
namespace NR
open Dialect

/-- The `buffer` argument: bytes, a numpy array of bits, or something else. Simplification: entries of the array are
0 or 1. -/
inductive BufArg where
  | bytes (b : List Byte)
  | bits (l : List Bool)
  | other

/-- `int(''.join(map(str, bits)), 2)`. -/
def bitsVal (l : List Bool) : Nat := l.foldl (fun a b => 2 * a + b.toNat) 0

/-- Conversion of a bit array to bytes, statistical_models.py:222-226 (a last incomplete group is right-aligned). -/
def bitsToBytes (l : List Bool) : List Byte :=
  (List.range ((l.length + 7) / 8)).map fun i => BitVec.ofNat 8 (bitsVal (pySlice l (8 * i) (8 * i + 8)))

/-- The loop of `unpack_values`, statistical_models.py:230-236. -/
def unpackLoop (buffer : List Byte) : List (Nat × Nat) → Except PyErr (List Val)
  | [] => .ok []
  | (i, id) :: rest => do
    let h ← structUnpack (List.replicate 6 (.scalar .u8)) (pySlice buffer i (i + headerLen))
    match lookupMsg id, payloadLen id with
    | some m, some L =>
      match structFmt m.format with
      | none => .error .structError
      | some fmt => do
        let p ← structUnpack fmt (pySlice buffer (i + headerLen) (i + headerLen + L))
        let r ← unpackLoop buffer rest
        .ok (h ++ p ++ r)
    | _, _ => .error .keyError

/-- `unpack_values`, statistical_models.py:214-237. -/
def unpackValues (buffer : BufArg) (struct : List (Nat × Nat)) : Except PyErr (List Val) :=
  match buffer with
  | .bits l => unpackLoop (bitsToBytes l) struct
  | .bytes b => unpackLoop b struct
  | .other => .error .valueError

/-- `arr[start:start+w] = [v] * w` on a numpy array: the slice must have exactly `w` entries. -/
def assignSlice (arr : List Int) (start w : Nat) (v : Int) : Except PyErr (List Int) :=
  if (pySlice arr start (start + w)).length = w then .ok (setSlice arr start (start + w) v) else .error .valueError

/-- The loop over header bytes, statistical_models.py:274-278; returns the array and the next field index. -/
def writeHeader (arr : List Int) (start idx : Nat) : Nat → Except PyErr (List Int × Nat)
  | 0 => .ok (arr, idx)
  | n + 1 => do
    let arr ← assignSlice arr start 8 idx
    writeHeader arr (start + 8) (idx + 1) n

/-- The loop over the format characters, statistical_models.py:282-287. A character that is not a scalar code (digits,
`s`) makes `None * 8` raise a TypeError. -/
def writeChars (arr : List Int) (start idx : Nat) : List Char → Except PyErr (List Int × Nat)
  | [] => .ok (arr, idx)
  | c :: cs =>
    match codeType c with
    | none => .error .typeError
    | some t => do
      let arr ← assignSlice arr start (fieldLength t * 8) idx
      writeChars arr (start + fieldLength t * 8) (idx + 1) cs

/-- Types of the payload fields in wire order, statistical_models.py:268-270. -/
def structTypes (m : MsgClass) : Except PyErr (List CType) :=
  m.orderedFieldnames.mapM fun nm => do
    let i ← pyIndex m.fieldnames nm
    match m.fieldtypes[i]? with
    | none => .error .indexError
    | some t => .ok t

/-- Loop state of `unpack_structure`. -/
structure StructState where
  bits : List Int
  names : List String
  types : List CType
  idx : Nat
  deriving DecidableEq, Repr

/-- One round of the loop of `unpack_structure`, statistical_models.py:260-287. -/
def structStep (bitwise : Bool) (st : StructState) (r : Nat × Nat) : Except PyErr StructState :=
  match lookupMsg r.2 with
  | none => .error .keyError
  | some m => do
    let ts ← structTypes m
    let names := st.names ++ ["magic", m.name ++ "_mlen", "seq", "srcSystem", m.name ++ "_srcComponent",
      m.name ++ "_msgId"] ++ m.orderedFieldnames.map (fun nm => m.name ++ "_" ++ nm)
    let types := st.types ++ List.replicate 6 .u8 ++ ts
    if bitwise then do
      let (bits, idx) ← writeHeader st.bits (r.1 * 8) st.idx headerLen
      let (bits, idx) ← writeChars bits ((r.1 + headerLen) * 8) idx (m.format.drop 1)
      .ok ⟨bits, names, types, idx⟩
    else .ok ⟨st.bits, names, types, st.idx⟩

/-- `unpack_structure`, statistical_models.py:239-288: bit map (empty if not bitwise), names, types. -/
def unpackStructure (bitwise : Bool) (bufferLen : Nat) (struct : List (Nat × Nat)) :
    Except PyErr (List Int × List String × List CType) := do
  let st ← struct.foldlM (structStep bitwise) ⟨if bitwise then List.replicate (bufferLen * 8) (-1) else [], [], [], 0⟩
  .ok (st.bits, st.names, st.types)

/-- `BufferModel`, statistical_models.py:138-143. `models` is the dict of field models as its list of items. -/
structure BufferModel (μ : Type) where
  models : List (String × FieldModel Val μ)
  windowSize : Option Nat
  modelSize : Nat
  description : Option (List DescItem)
  orderedFieldNames : Option (List (List Byte))

namespace BufferModel
variable {μ : Type} (O : StatOps Val μ)

/-- `BufferModel.__init__` without models, statistical_models.py:138-143. -/
def new (windowSize : Option Nat) : BufferModel μ := ⟨[], windowSize, 0, none, none⟩

/-- `add_sample`, statistical_models.py:145-148. -/
def addSample (bm : BufferModel μ) (name : String) (v : Val) (ty : String) : Except PyErr (BufferModel μ) :=
  match bm.models.lookup name with
  | some m => .ok { bm with models := dictSet bm.models name (m.addSample (.one v)) }
  | none => do
    let m ← FieldModel.new O name ty bm.windowSize
    .ok { bm with models := dictSet bm.models name (m.addSample (.one v)) }

/-- The loop of `add_buffer`, statistical_models.py:360-361: the state reached and the exception, if any. -/
def addSamples (bm : BufferModel μ) : List (String × Val × CType) → BufferModel μ × Except PyErr Unit
  | [] => (bm, .ok ())
  | (name, v, t) :: rest =>
    match bm.addSample O name v t.cname with
    | .error e => (bm, .error e)
    | .ok bm' => addSamples bm' rest

/-- Length in bytes of a buffer argument, statistical_models.py:348-353 (also 193-198). -/
def argLen : BufArg → Except PyErr Nat
  | .bytes b => .ok b.length
  | .bits l => .ok (l.length / 8)
  | .other => .error .valueError

/-- The new `model_size`, statistical_models.py:358-359. -/
def nextSize (windowSize : Option Nat) (modelSize : Nat) : Nat :=
  match windowSize with
  | none => modelSize + 1
  | some w => if modelSize < w then modelSize + 1 else w

/-- `add_buffer`, statistical_models.py:343-361. -/
def addBuffer (bm : BufferModel μ) (buffer : BufArg) (struct : List (Nat × Nat)) : BufferModel μ × Except PyErr Unit :=
  match (do
    let len ← argLen buffer
    let (_, names, types) ← unpackStructure false len struct
    let fields ← unpackValues buffer struct
    .ok (names, fields, types) : Except PyErr (List String × List Val × List CType)) with
  | .error e => (bm, .error e)
  | .ok (names, fields, types) =>
    addSamples O { bm with modelSize := nextSize bm.windowSize bm.modelSize } (names.zip (fields.zip types))

/-- `set_buffer_description`, statistical_models.py:168-175. -/
def setDescription (bm : BufferModel μ) (d : List DescItem) : BufferModel μ :=
  { bm with
    description := some d
    orderedFieldNames := some (d.filterMap fun
      | .field n _ => some n
      | _ => none) }

/-- `find_damaged_fields`, statistical_models.py:321-341. Simplification: error indices are non-negative. `none` is the
`None` returned when an `IndexError` is swallowed. -/
def findDamaged (errors : List Nat) (struct : List (Nat × Nat)) (bufferLen : Nat) :
    Except PyErr (Option (List (String × Nat))) := do
  let (bits, names, _) ← unpackStructure true bufferLen struct
  let sorted := errors.mergeSort (· ≤ ·)
  let hits := sorted.filter fun e => decide (e < bits.length) && decide (0 ≤ bits.getD e (-1))
  .ok (hits.mapM fun e => (names.zipIdx)[(bits.getD e (-1)).toNat]?)

/-- Score of a bit: a number, or NaN (`none`). -/
abbrev Score (μ : Type) := Option μ

/-- `a[mask] = v` with `mask = (bit_2_val_idx == j)`. -/
def assignMask {α : Type} (a : List α) (map : List Int) (j : Int) (v : α) : List α :=
  a.zipWith (fun x k => if k = j then v else x) map

/-- Result of `predict`. -/
structure Prediction (μ : Type) where
  fields : List (Option (String × μ × μ))
  bitProb : List (Score μ)
  bitStd : List (Score μ)

/-- The loop of `predict`, statistical_models.py:206-211. -/
def predictLoop (bits : List Int) (models : List (String × FieldModel Val μ)) (p : Prediction μ) :
    List (Nat × String × Val) → List (String × FieldModel Val μ) × Except PyErr (Prediction μ)
  | [] => (models, .ok p)
  | (j, name, v) :: rest =>
    match models.lookup name with
    | none => predictLoop bits models p rest
    | some m =>
      match m.read O (.classifyValue v) with
      | (m', .ok (.pair (val, std))) =>
        predictLoop bits (dictSet models name m')
          ⟨p.fields.set j (some (name, val, std)), assignMask p.bitProb bits j (some val),
            assignMask p.bitStd bits j (some std)⟩ rest
      | (m', .error e) => (dictSet models name m', .error e)
      | (m', .ok _) => (dictSet models name m', .error .typeError)

/-- `predict`, statistical_models.py:183-212. -/
def predict (bm : BufferModel μ) (buffer : BufArg) (struct : List (Nat × Nat)) :
    BufferModel μ × Except PyErr (Prediction μ) :=
  match (do
    let len ← argLen buffer
    let (bits, names, _) ← unpackStructure true len struct
    let fields ← unpackValues buffer struct
    .ok (bits, names, fields) : Except PyErr (List Int × List String × List Val)) with
  | .error e => (bm, .error e)
  | .ok (bits, names, fields) =>
    let (ms, r) := predictLoop O bits bm.models
      ⟨List.replicate fields.length none, List.replicate bits.length none, List.replicate bits.length none⟩
      ((List.range fields.length).zip (names.zip fields))
    ({ bm with models := ms }, r)

/-- `a[mask] = vs` for an array `vs` with as many entries as the mask selects (else ValueError). -/
def assignMaskArr (a : List Bool) (map : List Int) (j : Int) (vs : List Bool) : Except PyErr (List Bool) :=
  if (map.filter (· = j)).length = vs.length then
    .ok ((a.zip map).mapIdx fun k x => if x.2 = j then vs.getD ((map.take k).filter (· = j)).length false else x.1)
  else .error .valueError

/-- The loop of `bitwise_model_mean`, statistical_models.py:374-376. -/
def meanLoop (bits : List Int) (models : List (String × FieldModel Val μ)) (acc : List Bool) :
    List (Nat × String × CType) → List (String × FieldModel Val μ) × Except PyErr (List Bool)
  | [] => (models, .ok acc)
  | (j, name, t) :: rest =>
    match models.lookup name with
    | none => (models, .error .keyError)
    | some m =>
      match m.read O .mean with
      | (m', .ok (.stat x)) =>
        match O.toBits x t with
        | .error e => (dictSet models name m', .error e)
        | .ok b =>
          match assignMaskArr acc bits j b with
          | .error e => (dictSet models name m', .error e)
          | .ok acc => meanLoop bits (dictSet models name m') acc rest
      | (m', .error e) => (dictSet models name m', .error e)
      | (m', .ok _) => (dictSet models name m', .error .typeError)

/-- `bitwise_model_mean`, statistical_models.py:363-377. Simplification: bit indices are non-negative. -/
def bitwiseModelMean (bm : BufferModel μ) (idx : List Nat) (bufferLen : Nat) (struct : List (Nat × Nat)) :
    BufferModel μ × Except PyErr (List Bool) :=
  match unpackStructure true bufferLen struct with
  | .error e => (bm, .error e)
  | .ok (bits, names, types) =>
    match meanLoop O bits bm.models (List.replicate (bufferLen * 8) false)
      ((List.range names.length).zip (names.zip types)) with
    | (ms, .error e) => ({ bm with models := ms }, .error e)
    | (ms, .ok mean) => ({ bm with models := ms }, idx.mapM fun i =>
        match mean[i]? with
        | some b => .ok b
        | none => .error .indexError)

end BufferModel
end NR

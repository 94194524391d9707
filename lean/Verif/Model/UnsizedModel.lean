import Verif.Model.SaveLoad
/-
Buffer models whose `model_size` may be `None`, inference/statistical_models.py:290-361: `load` sets it to what the file holds, and a file
without it gives `None`. The files model_2018_all.json (scripts/ and runs/HC_eilat_July_2018/data/) and
scripts/model_2018_window_size_100.json are such files: they hold `field_models`, `buffer_description` and `window_size` only.
-/
namespace NR

/-- A `BufferModel` with its `model_size`, statistical_models.py:138-143. The field `modelSize` of `model` is not used. -/
structure SizedModel (μ : Type) where
  model : BufferModel μ
  size : Option Nat

namespace SizedModel
variable {μ : Type} (O : StatOps Val μ)

/-- `load`, statistical_models.py:298-319. Simplification: a window or model size that is neither a number nor `None` is a TypeError here (the
code would keep it). -/
def load (data : Json μ) : Except PyErr (SizedModel μ) := do
  let models ← data.get "field_models"
  let desc ← data.get "buffer_description"
  let w ← data.get "window_size"
  let size ← data.get "model_size"
  let items ← loadItems models
  let ms ← items.foldlM (loadField O) []
  let obj ← loadDescription ⟨ms, none, 0, none, none⟩ desc
  let w ← loadOpt w
  let size ← loadOpt size
  .ok ⟨{ obj with windowSize := w }, size⟩

/-- `save`, statistical_models.py:290-296. -/
def save (m : SizedModel μ) : SizedModel μ × Except PyErr (Json μ) :=
  match updateAll O m.model.models with
  | (ms, .error e) => ({ m with model := { m.model with models := ms } }, .error e)
  | (ms, .ok ()) => ({ m with model := { m.model with models := ms } },
      .ok (.obj (sortKeys [("field_models", .obj (sortKeys (ms.map fun p => (p.1, fieldJson p.2)))),
        ("buffer_description", descriptionJson m.model.description),
        ("window_size", optJson m.model.windowSize), ("model_size", optJson m.size)])))

/-- The new `model_size`, statistical_models.py:358-359: `None + 1` and `None < window_size` are TypeErrors. -/
def nextSize (windowSize : Option Nat) : Option Nat → Except PyErr Nat
  | none => .error .typeError
  | some n => match windowSize with
    | none => .ok (n + 1)
    | some w => if n < w then .ok (n + 1) else .ok w

/-- `add_buffer`, statistical_models.py:343-361. -/
def addBuffer (m : SizedModel μ) (buffer : BufArg) (struct : List (Nat × Nat)) : SizedModel μ × Except PyErr Unit :=
  match (do
    let len ← BufferModel.argLen buffer
    let (_, names, types) ← unpackStructure false len struct
    let fields ← unpackValues buffer struct
    .ok (names, fields, types) : Except PyErr (List String × List Val × List CType)) with
  | .error e => (m, .error e)
  | .ok (names, fields, types) =>
    match nextSize m.model.windowSize m.size with
    | .error e => (m, .error e)
    | .ok n =>
      let (bm, r) := m.model.addSamples O (names.zip (fields.zip types))
      (⟨bm, some n⟩, r)

/-- Calls of `add_buffer` one after the other, each exception caught: the model afterwards and what the calls did. -/
def addAll (m : SizedModel μ) : List (BufArg × List (Nat × Nat)) → SizedModel μ × List (Except PyErr Unit)
  | [] => (m, [])
  | (b, st) :: rest =>
    let (m', r) := m.addBuffer O b st
    let (m'', rs) := addAll m' rest
    (m'', r :: rs)

end SizedModel
end NR

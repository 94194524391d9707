import Verif.Model.Meta
/-
Model of `FieldModel`, inference/statistical_models.py:29-134.

Simplifications: `window_size` is `None` or a natural number; samples are of an arbitrary type `σ`, statistics of an
arbitrary type `μ`. What scipy / numpy compute is a parameter (`StatOps`) and may raise.
-/
namespace NR

/-- C name of a type: the keys of `field_lengths`, protocol_meta.py:8-9. -/
def CType.cname : CType → String
  | .u32 => "uint32_t" | .f32 => "float" | .u16 => "uint16_t" | .u8 => "uint8_t" | .i32 => "int32_t"
  | .i16 => "int16_t" | .i8 => "int8_t" | .u64 => "uint64_t" | .char => "char" | .i64 => "int64_t"

/-- The type with a given name: `field_type in field_lengths.keys()`, statistical_models.py:31. -/
def typeOfName (s : String) : Option CType :=
  [CType.u32, .f32, .u16, .u8, .i32, .i16, .i8, .u64, .char, .i64].find? (fun t => t.cname == s)

/-- The numeric operations used by a field model. -/
structure StatOps (σ μ : Type) where
  zero : μ
  one : μ
  /-- `norm.fit`, statistical_models.py:75 -/
  fit : List σ → Except PyErr (μ × μ)
  /-- `self._std <= 0`, statistical_models.py:92 -/
  nonPos : μ → Bool
  /-- `value == self._mean`, statistical_models.py:93 -/
  eqMean : σ → μ → Bool
  /-- `1 - erf(abs(mean - value) / std / sqrt 2)` as a function of mean, std, value, statistical_models.py:94-95 -/
  score : μ → μ → σ → μ
  /-- `norm.pdf`, statistical_models.py:81 -/
  pdf : μ → μ → σ → μ
  /-- `norm.cdf`, statistical_models.py:86 -/
  cdf : μ → μ → σ → μ
  /-- `num2bits`, statistical_models.py:14-26 -/
  toBits : μ → CType → Except PyErr (List Bool)

/-- `FieldModel`, statistical_models.py:30-51. The derived attributes `field_len`, `int_type`, `signed` are functions
of the type. -/
structure FieldModel (σ μ : Type) where
  name : String
  fieldType : CType
  windowSize : Option Nat
  samples : List σ
  mean : μ
  std : μ
  up2date : Bool

/-- `self.int_type`, statistical_models.py:41-49. -/
def CType.intType : CType → Bool
  | .f32 => false
  | _ => true

/-- `self.signed`, statistical_models.py:41-49. -/
def CType.signed : CType → Bool
  | .i64 | .i32 | .i16 | .i8 | .f32 => true
  | _ => false

/-- Argument of `add_sample`: one sample or a list. -/
inductive SampleArg (σ : Type) where
  | one (x : σ)
  | many (xs : List σ)

/-- The samples of an argument. -/
def SampleArg.toList {σ : Type} : SampleArg σ → List σ
  | .one x => [x]
  | .many xs => xs

namespace FieldModel
variable {σ μ : Type} (O : StatOps σ μ)

/-- `FieldModel.__init__`, statistical_models.py:30-51. -/
def new (name : String) (fieldType : String) (windowSize : Option Nat) : Except PyErr (FieldModel σ μ) :=
  match typeOfName fieldType with
  | none => .error .valueError
  | some t => .ok ⟨name, t, windowSize, [], O.zero, O.zero, false⟩

/-- `add_sample`, statistical_models.py:53-60. -/
def addSample (m : FieldModel σ μ) (a : SampleArg σ) : FieldModel σ μ :=
  let samples := match a with
    | .many xs => m.samples ++ xs
    | .one x => m.samples ++ [x]
  let samples := match m.windowSize with
    | some w => if samples.length > w then pyLast samples w else samples
    | none => samples
  { m with
    samples := samples
    up2date := false }

/-- `_update`, statistical_models.py:74-77: the new state and the exception raised by the fit, if any. -/
def update (m : FieldModel σ μ) : FieldModel σ μ × Except PyErr Unit :=
  if m.samples = [] then (m, .ok ())
  else match O.fit m.samples with
    | .ok (a, b) => ({ m with
        mean := a
        std := b
        up2date := true }, .ok ())
    | .error e => (m, .error e)

/-- `if not self._up2date: self._update()`. -/
def refresh (m : FieldModel σ μ) : FieldModel σ μ × Except PyErr Unit :=
  if m.up2date then (m, .ok ()) else m.update O

/-- The body of `classify_value` once the statistics are up to date, statistical_models.py:92-95. -/
def classify (mean std : μ) (value : σ) : μ × μ :=
  if O.nonPos std then (if O.eqMean value mean then (O.one, O.zero) else (O.zero, O.zero))
  else (O.score mean std value, std)

/-- A read access to the model. -/
inductive Read (σ : Type) where
  | mean
  | std
  | pdf (x : σ)
  | cdf (x : σ)
  | classifyValue (x : σ)
  | bitwiseMean
  | modelSize

/-- What a read access returns. -/
inductive Answer (μ : Type) where
  | stat (x : μ)
  | pair (p : μ × μ)
  | bits (b : List Bool)
  | size (n : Nat)
  deriving DecidableEq

/-- What is read off up-to-date statistics: properties `mean`, `std`, methods `pdf`, `cdf`, `classify_value`,
`bitwise_mean`, and `model_size`, statistical_models.py:62-96,127-134. -/
def answer (mean std : μ) (size : Nat) (t : CType) : Read σ → Except PyErr (Answer μ)
  | .mean => .ok (.stat mean)
  | .std => .ok (.stat std)
  | .pdf x => .ok (.stat (O.pdf mean std x))
  | .cdf x => .ok (.stat (O.cdf mean std x))
  | .classifyValue x => .ok (.pair (classify O mean std x))
  | .bitwiseMean => (O.toBits mean t).map .bits
  | .modelSize => .ok (.size size)

/-- A read access: refresh the cache, then read. `model_size` does not refresh. -/
def read (m : FieldModel σ μ) (r : Read σ) : FieldModel σ μ × Except PyErr (Answer μ) :=
  match r with
  | .modelSize => (m, answer O m.mean m.std m.samples.length m.fieldType r)
  | r =>
    match m.refresh O with
    | (m', .error e) => (m', .error e)
    | (m', .ok ()) => (m', answer O m'.mean m'.std m'.samples.length m'.fieldType r)

end FieldModel
end NR

import Verif.Model.InfoTheory
/-
Model of inference/entropy_mle.py. Numbers are reals (rounding is not modelled). NumPy arrays that a caller can see live
in a store, so that in-place updates and copies are visible.
-/
namespace NR

/-- The arrays that exist; an array is known by its position. -/
abbrev Store := List (List ℝ)

/-- A new array with the given contents, and its reference. -/
def Store.alloc (m : Store) (a : List ℝ) : Store × Nat := (m ++ [a], m.length)

/-- The contents of an array. -/
def Store.load (m : Store) (r : Nat) : List ℝ := m.getD r []

/-- In-place update of an array. -/
def Store.update (m : Store) (r : Nat) (a : List ℝ) : Store := m.set r a

/-- `bsc_llr(p)(y)`, entropy_mle.py:7-14, elementwise. -/
noncomputable def bscLlr (p : ℝ) (y : List ℝ) : List ℝ := y.map fun (v : ℝ) => (-1 : ℝ) ^ v * Real.log ((1 - p) / p)

/-- `class EMLE`, fields of entropy_mle.py:20-39. `data` holds the columns of `model_data`. -/
structure Emle where
  f : ℝ
  threshold : ℝ
  window : Int
  center : ℝ
  slope : ℝ
  hard : Bool
  soft : Bool
  size : Int
  entropy : List ℝ
  p1 : List ℝ
  data : List (List ℝ)

/-- `EMLE.__init__`, entropy_mle.py:20-39. -/
def Emle.new (f threshold : ℝ) (window : Int) (center slope : ℝ) (hard soft : Bool) : Emle :=
  { f, threshold, window, center, slope, hard, soft, size := 0, entropy := [], p1 := [], data := [] }

/-- `EMLE._model_confidence`, entropy_mle.py:41-43. -/
noncomputable def Emle.confidence (s : Emle) : ℝ :=
  if s.size ≤ 1 then 0 else 1 / (1 + Real.exp (-((s.size : ℝ) - s.center) * s.slope))

/-- `EMLE.reset`, entropy_mle.py:45-50. -/
def Emle.reset (s : Emle) : Emle := { s with size := 0, entropy := [], p1 := [], data := [] }

/-- `np.finfo(np.float_).eps`. -/
noncomputable def npEps : ℝ := 2 ^ (-52 : ℤ)

/-- The increment of a structural position, entropy_mle.py:62-63. -/
noncomputable def Emle.push (s : Emle) (p1 : ℝ) : ℝ := s.confidence * Real.log ((1 - p1 + npEps) / (p1 + npEps))

open Classical in
/-- `EMLE.predict`, entropy_mle.py:52-64; the array `r` is modified in place and returned. A boolean index of another
length raises an IndexError. -/
noncomputable def Emle.predict (s : Emle) (m : Store) (r : Nat) : Except PyErr (Store × Nat) :=
  let structural := s.entropy.map fun (h : ℝ) => decide (h < s.threshold)
  if structural.any id = false then .ok (m, r)
  else if s.confidence > 0 then
    if structural.length ≠ (m.load r).length then .error .indexError
    else .ok (m.update r (List.zipWith (fun (x : ℝ) (sp : Bool × ℝ) => if sp.1 then x + s.push sp.2 else x)
      (m.load r) (structural.zip s.p1)), r)
  else .ok (m, r)

/-- `np.clip(x, 0, 1)`. -/
noncomputable def clip01 (x : ℝ) : ℝ := min (max x 0) 1

/-- The mean of row `j` of `model_data`, entropy_mle.py:75. -/
noncomputable def rowMean (data : List (List ℝ)) (j : Nat) : ℝ :=
  (data.map fun (c : List ℝ) => c.getD j 0).sum / data.length

/-- `model_data` after appending an observation and trimming, entropy_mle.py:70-74. -/
def Emle.grow (s : Emle) (obs : List ℝ) : Except PyErr (List (List ℝ)) :=
  if s.data.flatten.length ≠ 0 ∧ (s.data.headD []).length ≠ obs.length then .error .valueError
  else
    let data := if s.data.flatten.length = 0 then [obs] else s.data ++ [obs]
    .ok (if 0 < s.window ∧ s.window < data.length then data.drop (data.length - s.window.toNat) else data)

/-- `EMLE.update_model`, entropy_mle.py:66-79. Simplification: for `f = 1/2` the division by zero gives 0 here instead
of an infinity or NaN. -/
noncomputable def Emle.updateModel (s : Emle) (obs : List ℝ) : Except PyErr Emle := do
  let data ← s.grow obs
  let p1 := (List.range obs.length).map fun (j : Nat) => clip01 ((rowMean data j - s.f) / (1 - 2 * s.f))
  let entropy ← entropyPy 2 (.d2 (p1.map fun (p : ℝ) => [1 - p, p]))
  .ok { s with data := data, p1 := p1, entropy := entropy,
               size := if s.size < s.window ∨ s.window = 0 then s.size + 1 else s.size }

/-- `np.array(x < 0, dtype=np.int_)`. -/
noncomputable def isNeg (x : List ℝ) : List ℝ := open Classical in x.map fun (v : ℝ) => if v < 0 then 1 else 0

/-- `EMLE.denoise_buffer`, entropy_mle.py:81-94: the new denoiser, the store, the returned array and the cost. -/
noncomputable def Emle.denoiseBuffer (s : Emle) (m : Store) (r : Nat) : Except PyErr (Emle × Store × Nat × ℝ) := do
  let obs := m.load r
  let (m, llr) := m.alloc (if s.soft then obs else bscLlr s.f obs)
  let hardBits := if s.soft then isNeg (m.load llr) else obs
  let (m, est) ← s.predict m llr
  let bits := isNeg (m.load est)
  let s ← s.updateModel hardBits
  let cost := (List.zipWith (fun (a b : ℝ) => |a - b|) hardBits bits).sum
  if s.hard then
    let (m, out) := m.alloc bits
    .ok (s, m, out, cost)
  else .ok (s, m, est, cost)

/-- `EMLE.denoise_sequence`, entropy_mle.py:96-109: the rows are arrays `rows` of the store; the estimates are the
contents of the returned arrays (they are copied into a fresh matrix). -/
noncomputable def Emle.denoiseSequence (s : Emle) (m : Store) :
    List Nat → Except PyErr (Emle × Store × List (List ℝ) × List ℝ)
  | [] => .ok (s, m, [], [])
  | r :: rs => do
    let (s, m, out, cost) ← s.denoiseBuffer m r
    let est := m.load out
    let (s, m, ests, costs) ← s.denoiseSequence m rs
    .ok (s, m, est :: ests, cost :: costs)

end NR

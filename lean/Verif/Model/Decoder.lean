import Verif.Model.InfoTheory
/-
What the decoders in /repo/decoders share: the external LDPC decoder, model bits, learning windows, array indexing.
The LDPC decoders are an external package: any function of a hidden state and an input.
-/
namespace NR

/-- The class of the LDPC decoder, `isinstance` checks of classifiying_decoder.py. -/
inductive LdpcKind where
  | logSpa
  | wbf
  | galBf
  deriving DecidableEq

/-- What is handed to `ldpc_decoder.decode`: log-likelihood ratios, samples with optional priors, or hard bits. -/
inductive LdpcIn where
  | llr (l : List ℝ)
  | samples (l : List ℝ) (priors : Option (List ℝ))
  | bits (l : List Bool)

/-- What `ldpc_decoder.decode` returns (`llr` is empty for hard decoders). -/
structure LdpcOut where
  estimate : List Bool
  llr : List ℝ
  success : Bool
  iterations : Nat
  syndrome : List Int
  vnode : List Int

/-- An LDPC decoder with hidden state `Λ`. -/
abbrev Ldpc (Λ : Type) := Λ → LdpcIn → Λ × LdpcOut

/-- A buffer classifier with hidden state `σ`: a label or an exception. -/
abbrev Labeler (σ : Type) := σ → List Bool → σ × Except PyErr Int

/-- `model_bits_idx` of classifiying_decoder.py:30-35, classifying_DUDE_decoder.py:31-36 and mavlink_decoder.py:61-66.
`infoIdx` marks the information bits among the codeword bits. -/
def modelBitsIdx (infoIdx : List Bool) (modelLength : Nat) : List Nat :=
  if infoIdx.count true ≤ modelLength then List.range modelLength
  else (List.range infoIdx.length).filter fun i => decide (i < modelLength) && infoIdx.getD i false

/-- `model_bits_idx` of entropy_bitwise_decoder.py:38-40, 148-150 and 258-260. -/
def modelBitsIdxPlain (infoIdx : List Bool) (modelLength : Nat) : List Nat :=
  (List.range infoIdx.length).filter fun i => decide (i < modelLength) && infoIdx.getD i false

/-- `a[idx]` for an array of non-negative indices: an IndexError when one is out of range. -/
def takeIdx {α : Type} (a : List α) (idx : List Nat) : Except PyErr (List α) :=
  if idx.all (· < a.length) then .ok (idx.filterMap (a[·]?)) else .error .indexError

/-- `a[mask]` for a boolean array: the selected entries. NumPy accepts a mask of length 0; any other mask must be as long
as the array. -/
def maskIdx {α : Type} (a : List α) (mask : List Bool) : Except PyErr (List α) :=
  if mask.length = 0 then .ok []
  else if mask.length ≠ a.length then .error .indexError
  else .ok ((a.zip mask).filterMap fun x => if x.2 then some x.1 else none)

/-- `np.array(llr < 0, dtype=np.int_)`. -/
noncomputable def hardBits (llr : List ℝ) : List Bool := open Classical in llr.map fun (x : ℝ) => decide (x < 0)

/-- Appending a sample to a matrix of columns and trimming, e.g. classifiying_decoder.py:149-156 and
entropy_bitwise_decoder.py:95-99. `window_length` is `None` or non-negative. -/
def growData (window : Option Nat) (data : List (List Bool)) (bits : List Bool) : List (List Bool) :=
  let data := if data.flatten.length = 0 then [bits] else data ++ [bits]
  match window with
  | none => data
  | some w => if w < data.length then data.drop (data.length - w) else data

/-- The rows of a matrix with `n` rows whose columns are given, as integers. -/
def rowsOf (n : Nat) (data : List (List Bool)) : List (List Int) :=
  (List.range n).map fun j => data.map fun c => if c.getD j false then 1 else 0

/-- `prob` of a matrix with `n` rows whose columns are given. -/
def probOf (n : Nat) (data : List (List Bool)) : Except PyErr (List (List ℚ)) := prob (.d2 data.length (rowsOf n data))

/-- `dist[:, 1]`: an IndexError when the rows are shorter. -/
def column1 (dist : List (List ℚ)) : Except PyErr (List ℚ) :=
  if dist.all (fun r => decide (1 < r.length)) then .ok (dist.map fun r => r.getD 1 0) else .error .indexError

/-- `np.finfo(np.float_).eps`. -/
noncomputable def floatEps : ℝ := 2 ^ (-52 : ℤ)

/-- `model_confidence`, classifiying_decoder.py:168-169, mavlink_decoder.py:182-183 and others. -/
noncomputable def modelConfidence (size : Nat) (center slope : ℝ) : ℝ :=
  if size ≤ 1 then 0 else 1 / (1 + Real.exp (-((size : ℝ) - center) * slope))

/-- Python's `max` of an array. -/
noncomputable def pyMax : List ℝ → Except PyErr ℝ
  | [] => .error .valueError
  | x :: xs => .ok (xs.foldl max x)

/-- `np.clip(x, lo, hi)`; `hi` wins when `hi < lo`. -/
noncomputable def npClip (lo hi x : ℝ) : ℝ := min hi (max lo x)

/-- `a[idx] += v` for distinct indices and `v` of the same length. -/
def addAt (a : List ℝ) (idx : List Nat) (v : List ℝ) : List ℝ :=
  (idx.zip v).foldl (fun (a : List ℝ) (iv : Nat × ℝ) => a.set iv.1 (a.getD iv.1 0 + iv.2)) a

/-- The choice of the cluster label in classifiying_decoder.py:78-101, mavlink_decoder.py:101-110: the classifier when
clustering is on, round robin when off, 0 with one cluster. `running` is `running_idx`. -/
def pickLabel {σ : Type} (cls : Labeler σ) (nClusters : Nat) (cluster : Bool) (s : σ) (running : Int)
    (bits : List Bool) : σ × Int × Except PyErr Int :=
  if 1 < nClusters then
    if cluster then
      let (s', r) := cls s bits
      (s', running, r)
    else (s, (running + 1) % nClusters, .ok ((running + 1) % nClusters))
  else (s, running, .ok 0)

end NR

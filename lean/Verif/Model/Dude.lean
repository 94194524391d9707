import Verif.Model.Segmentation
import Mathlib.Data.Real.Basic
import Mathlib.LinearAlgebra.Matrix.NonsingularInverse
/-
Model of inference/dude.py. Counts are naturals (numpy stores them as exact floats). The statistics are modelled for any
alphabet and any decision function; the decisions of the two classes are modelled over the reals.
-/
namespace NR

/-- `d.get(key)` of a dictionary. -/
def dictGet {κ ν : Type} [DecidableEq κ] (d : List (κ × ν)) (key : κ) : Option ν := d.lookup key

/-- `contexts[key][obs] += 1`, creating a zero vector first if the key is new (dude.py:44-46 and 189-191). -/
def bump {κ : Type} [DecidableEq κ] (A : Nat) (d : List (κ × List Nat)) (key : κ) (obs : Nat) : List (κ × List Nat) :=
  dictSet d key (((dictGet d key).getD (List.replicate A 0)).modify obs (· + 1))

/-- What is returned for a symbol without full context, and for a symbol with the counts of its context. -/
structure Decide (ρ : Type) where
  echo : Int → ρ
  dec : List Nat → Int → ρ

/-- `OnlineDude`, dude.py:9-28 (matrices are part of the decision function). -/
structure OnlineDude where
  k : Nat
  A : Nat
  contexts : List (List Int × List Nat) := []
  last : List Int := []
  deriving DecidableEq

/-- `OnlineDude.denoise_sample`, dude.py:30-63. -/
def OnlineDude.denoiseSample {ρ : Type} (D : Decide ρ) (st : OnlineDude) (obs : Int) : Except PyErr (ρ × OnlineDude) :=
  if ¬ (0 ≤ obs ∧ obs < st.A) then .error .valueError
  else if st.last.length < st.k then .ok (D.echo obs, { st with last := st.last ++ [obs] })
  else
    let contexts := bump st.A st.contexts st.last obs.toNat
    let counts := (dictGet contexts st.last).getD []
    .ok (D.dec counts obs, { st with contexts := contexts, last := st.last.drop 1 ++ [obs] })

/-- `OnlineDude.denoise_sequence`, dude.py:65-78; the list of the pairs (estimate, cost). -/
def OnlineDude.denoiseSequence {ρ : Type} (D : Decide ρ) : OnlineDude → List Int → Except PyErr (List ρ × OnlineDude)
  | st, [] => .ok ([], st)
  | st, o :: os => do
    let (r, st) ← st.denoiseSample D o
    let (rs, st) ← denoiseSequence D st os
    .ok (r :: rs, st)

/-- `OnlineDude.initial_context`, dude.py:98-105. -/
def OnlineDude.initialContext (st : OnlineDude) (context : List Int) : Except PyErr OnlineDude :=
  if context.length ≠ st.k then .error .valueError else .ok { st with last := context }

/-- `OnlineDude.reset`, dude.py:107-110. -/
def OnlineDude.reset (st : OnlineDude) : OnlineDude := { st with last := [], contexts := [] }

/-- The two-sided context of position `i`, dude.py:187-188 and 201. -/
def context2 (obs : List Int) (k i : Nat) : List Int × List Int := (pySlice obs (i - k) i, pySlice obs (i + 1) (i + k + 1))

/-- `range(k, n - k)`. -/
def interior (n k : Nat) : List Nat := (List.range (n - k)).drop k

/-- `DUDE.denoise_sequence`, dude.py:167-217; the pairs (estimate, cost) by position (the code returns the mean of the costs).
Simplification: symbols are in `range(alphabet_size)` (others index the count vector out of range or from its end). `zero` stands
for the initial zero entries. -/
def dudeSequence {ρ : Type} (D : Decide ρ) (zero : ρ) (A k : Nat) (obs : List Int) : Except PyErr (List ρ) :=
  let n := obs.length
  let estimates := List.replicate n zero
  let estimates := estimates.mapIdx fun i x => if i < k then D.echo (obs.getD i 0) else x
  let estimates := estimates.mapIdx fun i x => if k = 0 ∨ n - k ≤ i then D.echo (obs.getD i 0) else x
  let contexts := (interior n k).foldl (fun d i => bump A d (context2 obs k i) (obs.getD i 0).toNat) []
  (interior n k).foldlM (fun est i =>
    match dictGet contexts (context2 obs k i) with
    | none => .error .keyError
    | some counts => .ok (est.set i (D.dec counts (obs.getD i 0)))) estimates

/-- `DUDE.denoise_sample`, dude.py:136-165: the constructor does not set `_last_context`, so its first line raises. -/
def dudeSample (_obs : Int) : Except PyErr Int := .error .attributeError

/-- `np.argmin`: the first position of the smallest entry. -/
noncomputable def argmin (l : List ℝ) : Nat :=
  open Classical in
  (l.zipIdx.foldl (fun best xi => if xi.1 < best.1 then xi else best) (l.headD 0, 0)).2

/-- A count vector as a row vector. -/
def countVec (A : Nat) (m : List Nat) : Fin A → ℝ := fun i => ((m.getD i 0 : Nat) : ℝ)

/-- The hard decision and its cost, dude.py:51-57 and 204-210. `np.linalg.inv` is the matrix inverse. -/
noncomputable def hardDecision {A : Nat} (chan loss : Matrix (Fin A) (Fin A) ℝ) (m : List Nat) (z : Fin A) : Int × ℝ :=
  let posterior : Fin A → ℝ := fun i => Matrix.vecMul (countVec A m) chan⁻¹ i * chan i z
  let cost := List.ofFn (Matrix.vecMul posterior loss)
  (argmin cost, cost.getD (argmin cost) 0)

/-- `smooth_posterior`, dude.py:80-96 and 219-235, for the binary alphabet. -/
noncomputable def smoothPosterior (chan : Matrix (Fin 2) (Fin 2) ℝ) (m : List Nat) (z : Fin 2) : Fin 2 → ℝ :=
  open Classical in
  let tmp : Fin 2 → ℝ := Matrix.vecMul (countVec 2 m) chan⁻¹
  let tmp : Fin 2 → ℝ :=
    if tmp 0 < 1 then
      let tmp : Fin 2 → ℝ := ![1, tmp 1]
      ![tmp 0, (tmp 0 + tmp 1) - 1]
    else if tmp 1 < 1 then
      let tmp : Fin 2 → ℝ := ![tmp 0, 1]
      ![(tmp 0 + tmp 1) - 1, tmp 1]
    else tmp
  let tmp : Fin 2 → ℝ := fun i => tmp i * chan i z
  fun i => tmp i / (tmp 0 + tmp 1)

/-- The soft decision and its cost, dude.py:58-63 and 211-216. -/
noncomputable def softDecision (chan loss : Matrix (Fin 2) (Fin 2) ℝ) (m : List Nat) (z : Fin 2) : (Fin 2 → ℝ) × ℝ :=
  let p := smoothPosterior chan m z
  (p, dotProduct (Matrix.vecMul p loss) p)

end NR

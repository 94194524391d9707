import Verif.Model.Analysis
import Verif.Model.Recording
/-
Model of the analysis of the field classifier in scripts/classifier_analysis.py:107-343. Scores are reals, NaN is `none`; error
positions are non-negative. The time stamps, the log and the files written are not modelled.
-/
namespace NR

/-- The six numbers of a performance array, classifier_analysis.py:135-136, 143-144, 173-174, 182-183, 204-205. -/
def performance (tp fp : Nat) (positive negative : Int) : List Int :=
  [tp, fp, negative - fp, positive - tp, positive, negative]

/-- `np.intersect1d(a, b)`: the distinct common values, sorted. -/
def npIntersect (a b : List Nat) : List Nat := (a.filter (· ∈ b)).dedup.mergeSort (· ≤ ·)

/-- `np.setdiff1d(a, b)`: the distinct values of `a` that are not in `b`, sorted. -/
def npSetdiff (a b : List Nat) : List Nat := (a.filter (· ∉ b)).dedup.mergeSort (· ≤ ·)

/-- The dictionary of `classifier_characterization`. -/
structure Characterization where
  goodBits : List Bool
  badBits : List Bool
  goodFields : List Nat
  badFields : List Nat
  nFields : Nat
  nDamaged : Nat
  goodPerformance : List Int
  badPerformance : List Int

/-- `classifier_characterization`, classifier_analysis.py:107-150. -/
noncomputable def characterize (fields : List (Option (String × ℝ × ℝ))) (bitProb : List (BufferModel.Score ℝ)) (thr : ℝ)
    (damaged : List Nat) : Except PyErr Characterization := do
  let good ← fieldsWhere (fun x => 1 - thr < x) fields
  let bad ← fieldsWhere (fun x => x < thr) fields
  let goodFalse := good.countP (· ∈ damaged)
  let goodTrue := good.countP (· ∉ damaged)
  let badTrue := bad.countP (· ∈ damaged)
  let badFalse := bad.countP (· ∉ damaged)
  let n := fields.length
  let nd := damaged.length
  .ok { goodBits := above (1 - thr) bitProb, badBits := below thr bitProb, goodFields := good, badFields := bad,
        nFields := n, nDamaged := nd,
        goodPerformance := performance goodTrue goodFalse ((n : Int) - nd) nd,
        badPerformance := performance badTrue badFalse nd ((n : Int) - nd) }

open Classical in
/-- The fields with no probability and no deviation, classifier_analysis.py:164: a TypeError when a field has no model. -/
noncomputable def forcedFields (fields : List (Option (String × ℝ × ℝ))) : Except PyErr (List Nat) :=
  if fields.any Option.isNone then .error .typeError
  else .ok ((List.range fields.length).filter fun i =>
    match fields.getD i none with
    | some (_, x, y) => decide (x ≤ 0) && decide (y = 0)
    | none => false)

/-- The dictionary of `forcing_characterization`. -/
structure ForcingChar where
  forcedFields : List Nat
  forcedBits : List Nat
  correctBits : List Nat
  incorrectBits : List Nat
  missedBits : List Nat
  correctFields : List Nat
  incorrectFields : List Nat
  missedFields : List Nat
  bitsPerformance : List Int
  fieldsPerformance : List Int
  quality : List ℚ
  flippedPerformance : List Int

/-- `forcing_characterization` with the model's values of the forced bits, classifier_analysis.py:159-211. Indexing `rx` and `tx`
raises an IndexError outside the words. -/
noncomputable def forcingChar (fields : List (Option (String × ℝ × ℝ))) (forced : List Nat) (damaged errors : List Nat)
    (rx tx : List Bool) (modelBits : List Bool) : Except PyErr ForcingChar := do
  let ff ← forcedFields fields
  if forced.all (fun i => decide (i < rx.length) && decide (i < tx.length)) then
    let flipped := ((forced.zip modelBits).filter fun x => x.2 != rx.getD x.1 false).map Prod.fst
    let correct := npIntersect forced errors
    let incorrect := npSetdiff forced errors
    let correctF := npIntersect ff damaged
    let incorrectF := npSetdiff ff damaged
    let correctFl := npIntersect flipped errors
    let incorrectFl := npSetdiff flipped errors
    let n := fields.length
    .ok { forcedFields := ff, forcedBits := forced, correctBits := correct, incorrectBits := incorrect
          missedBits := npSetdiff errors forced
          correctFields := correctF, incorrectFields := incorrectF, missedFields := npSetdiff damaged ff
          bitsPerformance := performance correct.length incorrect.length errors.length ((rx.length : Int) - errors.length)
          fieldsPerformance := performance correctF.length incorrectF.length damaged.length ((n : Int) - damaged.length)
          quality := [errors.length, forced.length, flipped.length, correctFl.length, incorrectFl.length,
            if 0 < forced.length then
              ((forced.zip modelBits).countP fun x => tx.getD x.1 false != x.2 : ℕ) / (forced.length : ℚ) else 0]
          flippedPerformance :=
            performance correctFl.length incorrectFl.length errors.length ((rx.length : Int) - errors.length) }
  else .error .indexError

/-- `corrupted.invert(errors)`, classifier_analysis.py:274-275: IndexError outside the word. -/
def invertAt (w : List Bool) (errors : List Nat) : Except PyErr (List Bool) :=
  if errors.all (· < w.length) then .ok (errors.foldl (fun w e => w.set e (!w.getD e false)) w) else .error .indexError

/-- What the loop keeps of a word. -/
structure WordReport where
  rx : List Bool
  damaged : List Nat
  classifier : Characterization
  forcing : ForcingChar

/-- The body of the loop of `simulation_step`, classifier_analysis.py:273-309. The set of damaged fields is listed in some
order. -/
noncomputable def analyseWord (O : StatOps Val ℝ) (thr : ℝ) (bm : BufferModel ℝ) (st : List (Nat × Nat)) (tx : List Bool)
    (errors : List Nat) : BufferModel ℝ × Except PyErr WordReport :=
  match invertAt tx errors with
  | .error e => (bm, .error e)
  | .ok rx => match bm.predict O (.bits rx) st with
    | (bm, .error e) => (bm, .error e)
    | (bm, .ok p) => match BufferModel.findDamaged errors st (rx.length / 8) with
      | .error e => (bm, .error e)
      | .ok none => (bm, .error .typeError)
      | .ok (some d) =>
        let damaged := (d.map Prod.snd).dedup
        match characterize p.fields p.bitProb thr damaged with
        | .error e => (bm, .error e)
        | .ok ch => match forcedFields p.fields with
          | .error e => (bm, .error e)
          | .ok _ =>
            let forced := NR.forcedBits p.bitProb p.bitStd
            match bm.bitwiseModelMean O forced (rx.length / 8) st with
            | (bm, .error e) => (bm, .error e)
            | (bm, .ok bits) =>
              (bm, (forcingChar p.fields forced damaged errors rx tx bits).map fun f => ⟨rx, damaged, ch, f⟩)

/-- The loop of `simulation_step`, classifier_analysis.py:273-312: words with their errors, `running` is `running_idx`. -/
noncomputable def analyseWords (O : StatOps Val ℝ) (thr : ℝ) (structures : List (List (Nat × Nat))) (nClusters : Nat) :
    BufferModel ℝ → Nat → List (List Bool × List Nat) → BufferModel ℝ × Except PyErr (List WordReport)
  | bm, _, [] => (bm, .ok [])
  | bm, running, (tx, errors) :: rest =>
    match structures[running]? with
    | none => (bm, .error .indexError)
    | some st => match analyseWord O thr bm st tx errors with
      | (bm, .error e) => (bm, .error e)
      | (bm, .ok r) =>
        match analyseWords O thr structures nClusters bm ((running + 1) % nClusters) rest with
        | (bm, .error e) => (bm, .error e)
        | (bm, .ok rs) => (bm, .ok (r :: rs))

/-- `simulation_step`, classifier_analysis.py:214-343, with the model loaded from the file or, with `learn`, a new one
(classifier_analysis.py:224-227; `window_len` is not passed on). -/
noncomputable def analysisStep (O : StatOps Val ℝ) (thr : ℝ) (structures : List (List (Nat × Nat))) (nClusters : Nat)
    (learn : Bool) (loaded : BufferModel ℝ) (words : List (List Bool × List Nat)) : Except PyErr (List WordReport) :=
  (analyseWords O thr structures nClusters (if learn then BufferModel.new none else loaded) 0 words).2

/-- `no_errors = int(encoder.n * p)`, classifier_analysis.py:229, for a probability given as a non-negative rational. -/
def errorCount (n : Nat) (p : ℚ) : Nat := (n * p).floor.toNat

/-- `info_errors` and `parity_errors` of a word, classifier_analysis.py:315-316. -/
def errorSplit (k : Nat) (errors : List Nat) : Nat × Nat := (errors.countP (· < k), errors.countP (k ≤ ·))

end NR

import Verif.Model.FebReader
/-
Model of the success rates by input error rate, runs/Feb_2022/data/data_reader.m:499-548, runs/Feb_2022/data/analysis.m:20-41, 56-73 and
runs/Feb_2022/data/experiment_analysis.m:1-5. A reading is an error rate (-1 if the word is unknown) with the success flag. Doubles are
reals: in MATLAB the edges are rounded multiples of the width. A quotient by zero is NaN, `none`. Plots are not modelled.
-/
namespace NR.Feb

/-- `max([a b])` of readings, data_reader.m:529. -/
noncomputable def maxBer : List (ℝ × Bool) → Option ℝ
  | [] => none
  | r :: rs => match maxBer rs with
    | none => some r.1
    | some m => some (max r.1 m)

open Classical in
/-- `0:w:top`, data_reader.m:531: the multiples of `w` up to `top`. -/
noncomputable def binEdges (w top : ℝ) : List ℝ :=
  if top < 0 then [] else (List.range (⌊top / w⌋₊ + 1)).map fun j : Nat => (j : ℝ) * w

open Classical in
/-- `success(mask)` for one bin, data_reader.m:540-541. -/
noncomputable def inBin (lo hi : ℝ) (rs : List (ℝ × Bool)) : List Bool :=
  (rs.filter fun r => decide (lo ≤ r.1) && decide (r.1 < hi)).map (·.2)

/-- `sum(success)/length(success)`. -/
noncomputable def rateOf (success : List Bool) : Option ℝ :=
  if success.length = 0 then none else some ((success.count true : ℝ) / success.length)

/-- The loop over the bins, data_reader.m:528-546: attempts and success rate of each bin. The two vectors start with
`ceil(max/width)` zeros and grow when written beyond. The readings of the 16th follow those of the 14th. -/
noncomputable def binTable (w : ℝ) (r14 r16 : List (ℝ × Bool)) : List (Nat × Option ℝ) :=
  match maxBer (r14 ++ r16) with
  | none => []
  | some m =>
    let nBins := ⌈m / w⌉.toNat
    let edges := binEdges w (m + w)
    (List.range (max nBins (edges.length - 1))).map fun j =>
      if j < edges.length - 1 then
        let success := inBin (edges.getD j 0) (edges.getD (j + 1) 0) r14 ++ inBin (edges.getD j 0) (edges.getD (j + 1) 0) r16
        (success.length, rateOf success)
      else (0, some 0)

/-- The overall success rate, data_reader.m:505. -/
noncomputable def overallRate (r14 r16 : List (ℝ × Bool)) : Option ℝ :=
  if r14.length + r16.length = 0 then none
  else some (((r14.countP (·.2) + r16.countP (·.2) : Nat) : ℝ) / (r14.length + r16.length : Nat))

open Classical in
/-- `successeful_decodeing_ber`, data_reader.m:506 (analysis.m:68, experiment_analysis.m:2). -/
def successBers (rs : List (ℝ × Bool)) : List ℝ := (rs.filter (·.2)).map (·.1)

open Classical in
/-- `unsuccesseful_decodeing_ber` without the entries -1, data_reader.m:507-509 (analysis.m:69-71, experiment_analysis.m:3-5). -/
noncomputable def failureBers (rs : List (ℝ × Bool)) : List ℝ :=
  ((rs.filter (!·.2)).map (·.1)).filter fun b => decide (b ≠ -1)

open Classical in
/-- `[ship_feb_14_rx.input_ber]` with `[ship_feb_14_rx.success]`, data_reader.m:499, 533. -/
noncomputable def readings (rs : List Reception) : List (ℝ × Bool) := rs.map fun r => (r.inputBer, decide r.success)

end NR.Feb

import Verif.Props.C29
import Verif.Lemmas.Normal
/-
C29: what the score, the density and the distribution function of a field model mean: probabilities of the normal
distribution with the mean and the deviation of the samples kept.
-/
namespace NR
open Spec FieldModel Real MeasureTheory ProbabilityTheory

/-- C29: whatever history a field model has, as long as the samples kept are not all the same, the score of a value is the
probability that a normally distributed reading is at least as far from the mean, `cdf` is the probability that it is at most
the value, and `pdf` is its density. -/
theorem c29_probability (tb : ℝ → CType → Except PyErr (List Bool)) (name ty : String) (w : Option Nat)
    (m : FieldModel ℝ ℝ) (h : FieldModel.new (realOps tb) name ty w = .ok m) (ops : List (FieldOp ℝ))
    (kept : List ℝ) (hk : kept = windowed w (added ops)) (hv : ∃ a ∈ kept, a ≠ average kept) :
    (∀ x, ((runOps (realOps tb) m ops).1.read (realOps tb) (.classifyValue x)).2 =
      .ok (.pair ((normal (average kept) (stdDev kept)).real {y | |x - average kept| ≤ |y - average kept|},
        stdDev kept))) ∧
    (∀ x, ((runOps (realOps tb) m ops).1.read (realOps tb) (.cdf x)).2 =
      .ok (.stat ((normal (average kept) (stdDev kept)).real {y | y ≤ x}))) ∧
    ∃ density : ℝ → ℝ,
      (∀ x, ((runOps (realOps tb) m ops).1.read (realOps tb) (.pdf x)).2 = .ok (.stat (density x))) ∧
      normal (average kept) (stdDev kept) = volume.withDensity fun x => ENNReal.ofReal (density x) := by
  obtain ⟨t, ht⟩ : ∃ t, typeOfName ty = some t := by
    cases ht : typeOfName ty with
    | none => simp [FieldModel.new, ht] at h
    | some t => exact ⟨t, rfl⟩
  obtain ⟨m', h1, h2, _⟩ := inv_new (realOps tb) (name := name) (w := w) ht
  rw [h] at h1
  injection h1 with h1
  subst h1
  have hi := (runOps_spec (realOps tb) ops [] m h2).1
  simp only [List.nil_append] at hi
  have hne : stdDev kept ≠ 0 := by
    obtain ⟨a, ha, hne⟩ := hv
    exact fun h0 => hne (stdDev_eq_zero.1 h0 a ha)
  have hpos : 0 < stdDev kept := lt_of_le_of_ne (stdDev_nonneg kept) (Ne.symm hne)
  refine ⟨?_, ?_, fun x => exp (-((x - average kept) / stdDev kept) ^ 2 / 2) / (stdDev kept * √(2 * π)), ?_, ?_⟩
  · intro x
    rw [(inv_read (realOps tb) hi (.classifyValue x)).2, ← hk, realOps_stats]
    have : ¬ stdDev kept ≤ 0 := not_le.2 hpos
    simp only [Except.bind, answer, classify, normal_outside _ hpos]
    simp [realOps, this]
  · intro x
    rw [(inv_read (realOps tb) hi (.cdf x)).2, ← hk, realOps_stats]
    simp only [Except.bind, answer]
    rw [show {y : ℝ | y ≤ x} = Set.Iic x from rfl, normal_Iic _ hpos]
    rfl
  · intro x
    rw [(inv_read (realOps tb) hi (.pdf x)).2, ← hk, realOps_stats]
    rfl
  · rw [normal, gaussianReal_of_var_ne_zero _ (var_ne_zero hpos)]
    congr 1
    funext x
    rw [gaussianPDF]
    congr 1
    rw [gaussianPDFReal, var_coe, Real.sqrt_mul (by positivity), Real.sqrt_sq hpos.le]
    rw [show -(x - average kept) ^ 2 / (2 * stdDev kept ^ 2) = -((x - average kept) / stdDev kept) ^ 2 / 2 by
      rw [div_pow]; field_simp]
    rw [mul_comm (√(2 * π))]
    rw [inv_mul_eq_div]

/-- The two samples 1 and 3 of a field give the normal distribution with mean 2 and deviation 1. -/
example : ∃ m, FieldModel.new (realOps fun _ _ => .error .structError) "alt" "float" (some 5) = .ok m ∧
    ((runOps (realOps fun _ _ => .error .structError) m [FieldOp.add (.many [(1 : ℝ), 3])]).1.read
      (realOps fun _ _ => .error .structError) (.cdf 2)).2 = .ok (.stat ((normal 2 1).real {y | y ≤ 2})) := by
  have hkept : [(1 : ℝ), 3] = windowed (some 5) (added [FieldOp.add (.many [(1 : ℝ), 3])]) := by
    simp [windowed, lastN, added, SampleArg.toList]
  have ha : average [(1 : ℝ), 3] = 2 := by norm_num [Spec.average]
  have hs : stdDev [(1 : ℝ), 3] = 1 := by
    unfold stdDev
    rw [ha]
    norm_num [Spec.average]
  refine ⟨_, rfl, ?_⟩
  have := (c29_probability (fun _ _ => .error .structError) "alt" "float" (some 5) _ rfl
    [FieldOp.add (.many [(1 : ℝ), 3])] _ hkept ⟨1, by simp, by rw [ha]; norm_num⟩).2.1 2
  rwa [ha, hs] at this

end NR

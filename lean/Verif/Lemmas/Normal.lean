import Verif.Lemmas.Gauss
import Verif.Spec.Normal
/-
The distribution function of the normal distribution in terms of the error function.
-/
namespace NR
open Spec Real MeasureTheory ProbabilityTheory Set

theorem erf_neg (x : ℝ) : erf (-x) = -erf x := by
  unfold erf
  have h : ∫ t in (0)..x, exp (-(-t) ^ 2) = ∫ t in (-x)..(-0), exp (-t ^ 2) :=
    intervalIntegral.integral_comp_neg (f := fun t : ℝ => exp (-t ^ 2)) (a := 0) (b := x)
  simp only [even_two, Even.neg_pow, neg_zero] at h
  rw [intervalIntegral.integral_symm, ← h]
  ring

variable {s : ℝ}

theorem var_ne_zero (hs : 0 < s) : Real.toNNReal (s ^ 2) ≠ 0 := by
  rw [Ne, Real.toNNReal_eq_zero, not_le]
  positivity

theorem var_coe (s : ℝ) : ((Real.toNNReal (s ^ 2) : NNReal) : ℝ) = s ^ 2 := Real.coe_toNNReal _ (sq_nonneg s)

theorem pdf_zero (hs : 0 < s) (x : ℝ) :
    gaussianPDFReal 0 (Real.toNNReal (s ^ 2)) x = 1 / (s * √(2 * π)) * exp (-(x / (s * √2)) ^ 2) := by
  rw [gaussianPDFReal, var_coe, sub_zero]
  have h1 : √(2 * π * s ^ 2) = s * √(2 * π) := by
    rw [Real.sqrt_mul (by positivity), Real.sqrt_sq hs.le, mul_comm]
  have h2 : -x ^ 2 / (2 * s ^ 2) = -(x / (s * √2)) ^ 2 := by
    rw [div_pow, mul_pow, Real.sq_sqrt (by norm_num), mul_comm 2, neg_div]
  rw [h1, h2, one_div]

theorem pdf_interval (hs : 0 < s) (y : ℝ) :
    ∫ x in (0)..y, gaussianPDFReal 0 (Real.toNNReal (s ^ 2)) x = erf (y / (s * √2)) / 2 := by
  simp only [pdf_zero hs]
  rw [intervalIntegral.integral_const_mul,
    intervalIntegral.integral_comp_div (fun t : ℝ => exp (-t ^ 2)) (by positivity : s * √2 ≠ 0), zero_div, smul_eq_mul]
  unfold erf
  have h3 : √(2 * π) = √2 * √π := Real.sqrt_mul (by norm_num) _
  rw [h3]
  have hp : √π ≠ 0 := by positivity
  field_simp

theorem pdf_half (hs : 0 < s) : ∫ x in Ioi (0 : ℝ), gaussianPDFReal 0 (Real.toNNReal (s ^ 2)) x = 1 / 2 := by
  simp only [pdf_zero hs]
  rw [integral_const_mul]
  have h : (fun x : ℝ => exp (-(x / (s * √2)) ^ 2)) = fun x : ℝ => exp (-(1 / (2 * s ^ 2)) * x ^ 2) := by
    funext x
    congr 1
    rw [div_pow, mul_pow, Real.sq_sqrt (by norm_num)]
    ring
  rw [h, integral_gaussian_Ioi]
  have h1 : √(π / (1 / (2 * s ^ 2))) = s * √(2 * π) := by
    rw [show π / (1 / (2 * s ^ 2)) = 2 * π * s ^ 2 by field_simp, Real.sqrt_mul (by positivity), Real.sqrt_sq hs.le, mul_comm]
  rw [h1]
  have : s * √(2 * π) ≠ 0 := by positivity
  field_simp

theorem cdf_zero (hs : 0 < s) (y : ℝ) : (normal 0 s).real (Iic y) = (1 + erf (y / (s * √2))) / 2 := by
  have hv := var_ne_zero hs
  have hint := integrable_gaussianPDFReal 0 (Real.toNNReal (s ^ 2))
  have key : (normal 0 s).real (Iic y) = ∫ x in Iic y, gaussianPDFReal 0 (Real.toNNReal (s ^ 2)) x := by
    unfold normal Measure.real
    rw [gaussianReal_apply_eq_integral _ hv, ENNReal.toReal_ofReal]
    exact integral_nonneg fun x => gaussianPDFReal_nonneg _ _ _
  have h0 : ∫ x in Iic (0 : ℝ), gaussianPDFReal 0 (Real.toNNReal (s ^ 2)) x = 1 / 2 := by
    have h1 := integral_gaussianPDFReal_eq_one 0 hv
    rw [← intervalIntegral.integral_Iic_add_Ioi hint.integrableOn hint.integrableOn (b := 0), pdf_half hs] at h1
    linarith
  have h2 := intervalIntegral.integral_Iic_sub_Iic (f := gaussianPDFReal 0 (Real.toNNReal (s ^ 2))) (a := 0) (b := y)
    hint.integrableOn hint.integrableOn
  rw [pdf_interval hs, h0] at h2
  rw [key]
  linarith

/-- The distribution function of the normal distribution. -/
theorem normal_Iic (c : ℝ) (hs : 0 < s) (x : ℝ) : (normal c s).real (Iic x) = (1 + erf ((x - c) / s / √2)) / 2 := by
  have h : normal c s = (normal 0 s).map (· + c) := by
    unfold normal
    rw [gaussianReal_map_add_const, zero_add]
  have hpre : (fun y : ℝ => y + c) ⁻¹' Iic x = Iic (x - c) := by
    ext y
    simp [le_sub_iff_add_le]
  rw [h, measureReal_def, Measure.map_apply (by fun_prop) measurableSet_Iic, hpre, ← measureReal_def, cdf_zero hs, div_div]

instance normal_prob (c s : ℝ) : IsProbabilityMeasure (normal c s) := by
  unfold normal
  infer_instance

theorem normal_Iio (c : ℝ) (hs : 0 < s) (x : ℝ) : (normal c s).real (Iio x) = (1 + erf ((x - c) / s / √2)) / 2 := by
  rw [← normal_Iic c hs]
  have : NullSingletonClass (normal c s) := nullSingletonClass_gaussianReal (μ := c) (var_ne_zero hs)
  exact measureReal_congr Iio_ae_eq_Iic

theorem normal_Ici (c : ℝ) (hs : 0 < s) (x : ℝ) : (normal c s).real (Ici x) = (1 - erf ((x - c) / s / √2)) / 2 := by
  rw [← compl_Iio, probReal_compl_eq_one_sub measurableSet_Iio, normal_Iio c hs]
  ring

theorem normal_Ioi (c : ℝ) (hs : 0 < s) (x : ℝ) : (normal c s).real (Ioi x) = (1 - erf ((x - c) / s / √2)) / 2 := by
  rw [← compl_Iic, probReal_compl_eq_one_sub measurableSet_Iic, normal_Iic c hs]
  ring

/-- The probability of being at least as far from the mean as `x`. -/
theorem normal_outside (c : ℝ) (hs : 0 < s) (x : ℝ) :
    (normal c s).real {y | |x - c| ≤ |y - c|} = 1 - erf (|c - x| / s / √2) := by
  by_cases hx : |x - c| = 0
  · have h1 : {y : ℝ | |x - c| ≤ |y - c|} = univ := by
      ext y
      simp [hx]
    rw [h1, probReal_univ, abs_sub_comm, hx]
    simp [erf_zero]
  have hpos : 0 < |x - c| := lt_of_le_of_ne (abs_nonneg _) (Ne.symm hx)
  have hset : {y : ℝ | |x - c| ≤ |y - c|} = Iic (c - |x - c|) ∪ Ici (c + |x - c|) := by
    ext y
    simp only [mem_ofPred_eq, mem_union, mem_Iic, mem_Ici]
    rw [le_abs (a := |x - c|) (b := y - c)]
    constructor
    · rintro (h | h)
      · exact Or.inr (by linarith)
      · exact Or.inl (by linarith)
    · rintro (h | h)
      · exact Or.inr (by linarith)
      · exact Or.inl (by linarith)
  have hd : Disjoint (Iic (c - |x - c|)) (Ici (c + |x - c|)) := by
    rw [Set.disjoint_left]
    intro y h1 h2
    simp only [mem_Iic, mem_Ici] at h1 h2
    linarith
  rw [hset, measureReal_union hd measurableSet_Ici, normal_Iic c hs, normal_Ici c hs,
    show c - |x - c| - c = -|x - c| by ring, show c + |x - c| - c = |x - c| by ring, neg_div, neg_div, erf_neg,
    abs_sub_comm c x]
  ring

end NR

import Verif.Spec.Gauss
import Mathlib.MeasureTheory.Integral.IntegralEqImproper
/-
Properties of the error function and of sample statistics.
-/
namespace NR
open Real Spec MeasureTheory

theorem gauss_integrable : Integrable fun t : ℝ => exp (-t ^ 2) := by
  have := integrable_exp_neg_mul_sq (b := 1) one_pos
  simpa using this

theorem gauss_ii (a b : ℝ) : IntervalIntegrable (fun t : ℝ => exp (-t ^ 2)) volume a b :=
  gauss_integrable.intervalIntegrable

theorem erf_zero : erf 0 = 0 := by simp [erf]

theorem erf_sub (a b : ℝ) : erf b - erf a = 2 / √π * ∫ t in a..b, exp (-t ^ 2) := by
  unfold erf
  rw [← mul_sub, intervalIntegral.integral_interval_sub_left (gauss_ii _ _) (gauss_ii _ _)]

theorem erf_strictMono : StrictMono erf := by
  intro a b h
  have h1 : 0 < ∫ t in a..b, exp (-t ^ 2) :=
    intervalIntegral.intervalIntegral_pos_of_pos (gauss_ii _ _) (fun x => exp_pos _) h
  have h2 : 0 < 2 / √π := by positivity
  have := erf_sub a b
  have := mul_pos h2 h1
  linarith

theorem erf_lt_one (x : ℝ) : erf x < 1 := by
  -- the whole half line gives one
  have hI : ∫ t in Set.Ioi (0 : ℝ), exp (-t ^ 2) = √π / 2 := by
    have := integral_gaussian_Ioi 1
    simpa using this
  have key : ∀ y, 0 ≤ y → erf y ≤ 1 := by
    intro y hy
    have h1 : ∫ t in (0)..y, exp (-t ^ 2) ≤ √π / 2 := by
      rw [← hI, intervalIntegral.integral_of_le hy]
      apply setIntegral_mono_set gauss_integrable.integrableOn
      · exact Filter.Eventually.of_forall fun _ => (exp_pos _).le
      · exact Filter.Eventually.of_forall fun _ h => h.1
    have hpi : 0 < √π := Real.sqrt_pos.2 pi_pos
    unfold erf
    calc 2 / √π * ∫ t in (0)..y, exp (-t ^ 2) ≤ 2 / √π * (√π / 2) := by gcongr
      _ = 1 := by field_simp
  rcases le_or_gt 0 x with h | h
  · have h2 := erf_strictMono (show x < x + 1 by linarith)
    have h3 := key (x + 1) (by linarith)
    linarith
  · have h2 := erf_strictMono h
    rw [erf_zero] at h2
    linarith

theorem erf_nonneg {x : ℝ} (h : 0 ≤ x) : 0 ≤ erf x := by
  have := erf_strictMono.monotone h
  rwa [erf_zero] at this

theorem sum_nonneg' {l : List ℝ} (h : ∀ x ∈ l, 0 ≤ x) : 0 ≤ l.sum := List.sum_nonneg h

theorem stdDev_nonneg (l : List ℝ) : 0 ≤ stdDev l := Real.sqrt_nonneg _

theorem average_sq_nonneg (l : List ℝ) (c : ℝ) : 0 ≤ average (l.map fun x => (x - c) ^ 2) := by
  unfold Spec.average
  apply div_nonneg _ (Nat.cast_nonneg _)
  apply List.sum_nonneg
  intro x hx
  obtain ⟨y, _, rfl⟩ := List.mem_map.1 hx
  positivity

theorem sum_sq_eq_zero {l : List ℝ} {c : ℝ} (h : (l.map fun x => (x - c) ^ 2).sum = 0) : ∀ x ∈ l, x = c := by
  induction l with
  | nil => simp
  | cons a l ih =>
    simp only [List.map_cons, List.sum_cons] at h
    have h1 : 0 ≤ (l.map fun x => (x - c) ^ 2).sum := by
      apply List.sum_nonneg
      intro x hx
      obtain ⟨y, _, rfl⟩ := List.mem_map.1 hx
      positivity
    have h2 : 0 ≤ (a - c) ^ 2 := by positivity
    intro x hx
    rcases List.mem_cons.1 hx with rfl | hx
    · have h3 : (x - c) ^ 2 = 0 := by linarith
      have : x - c = 0 := by simpa using h3
      linarith
    · exact ih (by linarith) x hx

/-- The deviation vanishes exactly when all samples agree. -/
theorem stdDev_eq_zero {l : List ℝ} : stdDev l = 0 ↔ ∀ x ∈ l, x = average l := by
  unfold stdDev
  rw [Real.sqrt_eq_zero (average_sq_nonneg _ _)]
  constructor
  · intro h
    unfold Spec.average at h
    rcases eq_or_ne l [] with rfl | hne
    · simp
    · have hl : (l.length : ℝ) ≠ 0 := by simpa using hne
      rw [div_eq_zero_iff] at h
      rcases h with h | h
      · exact sum_sq_eq_zero h
      · simp at h; exact absurd h hne
  · intro h
    unfold Spec.average
    rw [div_eq_zero_iff]
    left
    apply List.sum_eq_zero
    intro y hy
    obtain ⟨x, hx, rfl⟩ := List.mem_map.1 hy
    have := h x hx
    unfold Spec.average at this
    rw [← this]; ring

end NR

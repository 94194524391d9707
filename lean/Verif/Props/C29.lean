import Verif.Props.C27_C28
import Verif.Lemmas.Gauss
/-
C29: classify_value, over the reals (rounding is not modelled).
-/
namespace NR
open Spec FieldModel Real

open Classical in
/-- The statistics package over the reals: `norm.fit` returns the mean and the population deviation; the score is
`1 - erf(|mean - value| / std / sqrt 2)`. -/
noncomputable def realOps (toBits : ℝ → CType → Except PyErr (List Bool)) : StatOps ℝ ℝ where
  zero := 0
  one := 1
  fit := fun l => .ok (average l, stdDev l)
  nonPos := fun s => decide (s ≤ 0)
  eqMean := fun x m => decide (x = m)
  score := fun m s x => 1 - erf (|m - x| / s / √2)
  pdf := fun m s x => exp (-((x - m) / s) ^ 2 / 2) / (s * √(2 * π))
  cdf := fun m s x => (1 + erf ((x - m) / s / √2)) / 2
  toBits := toBits

theorem realOps_stats (tb : ℝ → CType → Except PyErr (List Bool)) (l : List ℝ) :
    statsOf (realOps tb) l = .ok (average l, stdDev l) := by
  unfold statsOf
  split
  · rename_i h
    subst h
    simp [average, stdDev, realOps]
  · rfl

/-- C29: whatever history a field model has, the score of a value is a probability, equal to 1 at the mean of the
samples kept, symmetric around the mean and non-increasing in the distance from it. If all kept samples agree it is 0
elsewhere; otherwise it is positive and strictly decreasing in the distance. The second component is the deviation. -/
theorem c29_classify (tb : ℝ → CType → Except PyErr (List Bool)) (name ty : String) (w : Option Nat)
    (m : FieldModel ℝ ℝ) (h : FieldModel.new (realOps tb) name ty w = .ok m) (ops : List (FieldOp ℝ))
    (kept : List ℝ) (hk : kept = windowed w (added ops)) :
    ∃ score : ℝ → ℝ,
      (∀ x, ((runOps (realOps tb) m ops).1.read (realOps tb) (.classifyValue x)).2 =
        .ok (.pair (score x, stdDev kept))) ∧
      (∀ x, 0 ≤ score x ∧ score x ≤ 1) ∧ score (average kept) = 1 ∧
      (∀ d, score (average kept + d) = score (average kept - d)) ∧
      (∀ x y, |x - average kept| ≤ |y - average kept| → score y ≤ score x) ∧
      ((∀ a ∈ kept, a = average kept) → ∀ x, x ≠ average kept → score x = 0) ∧
      ((∃ a ∈ kept, a ≠ average kept) → (∀ x, 0 < score x) ∧
        ∀ x y, |x - average kept| < |y - average kept| → score y < score x) := by
  obtain ⟨t, ht⟩ : ∃ t, typeOfName ty = some t := by
    cases ht : typeOfName ty with
    | none => simp [FieldModel.new, ht] at h
    | some t => exact ⟨t, rfl⟩
  obtain ⟨m', h1, h2, _⟩ := inv_new (realOps tb) (name := name) (w := w) ht
  rw [h] at h1
  injection h1 with h1
  subst h1
  have hi := (runOps_spec (realOps tb) ops [] m h2).1
  simp only [List.nil_append] at hi
  have hread : ∀ x, ((runOps (realOps tb) m ops).1.read (realOps tb) (.classifyValue x)).2 =
      .ok (.pair (classify (realOps tb) (average kept) (stdDev kept) x)) := by
    intro x
    rw [(inv_read (realOps tb) hi (.classifyValue x)).2, ← hk, realOps_stats]
    rfl
  set c := average kept with hc
  set s := stdDev kept with hs
  have hsn : 0 ≤ s := stdDev_nonneg kept
  refine ⟨fun x => (classify (realOps tb) c s x).1, ?_, ?_⟩
  · intro x
    rw [hread]
    congr 2
    apply Prod.ext
    · rfl
    · simp only [classify, realOps]
      by_cases h0 : s ≤ 0
      · have : s = 0 := le_antisymm h0 hsn
        simp only [h0, decide_true, if_true]
        by_cases hx : x = c <;> simp [hx, this]
      · simp [h0]
  by_cases h0 : s = 0
  · -- degenerate model
    have hsc : ∀ x, (classify (realOps tb) c s x).1 = if x = c then 1 else 0 := by
      intro x
      simp only [classify, realOps, h0, le_refl, decide_true, if_true]
      by_cases hx : x = c <;> simp [hx]
    simp only [hsc]
    refine ⟨?_, by simp, ?_, ?_, ?_, ?_⟩
    · intro x; split <;> norm_num
    · intro d
      by_cases hd : d = 0
      · simp [hd]
      · have : ¬ (c + d = c) := by simpa using hd
        have : ¬ (c - d = c) := by simpa using hd
        simp [hd]
    · intro x y hxy
      by_cases hy : y = c
      · have : x = c := by
          have : |x - c| ≤ 0 := by simpa [hy] using hxy
          have := abs_nonpos_iff.1 this
          linarith
        simp [this, hy]
      · simp only [hy, if_false]
        split <;> norm_num
    · intro _ x hx; simp [hx]
    · rintro ⟨a, ha, hne⟩
      exact absurd (stdDev_eq_zero.1 h0 a ha) hne
  · have hpos : 0 < s := lt_of_le_of_ne hsn (Ne.symm h0)
    have hsc : ∀ x, (classify (realOps tb) c s x).1 = 1 - erf (|c - x| / s / √2) := by
      intro x
      have : ¬ s ≤ 0 := not_le.2 hpos
      simp [classify, realOps, this]
    have h2pos : (0 : ℝ) < √2 := by positivity
    simp only [hsc]
    refine ⟨?_, ?_, ?_, ?_, ?_, ?_⟩
    · intro x
      have h3 : 0 ≤ erf (|c - x| / s / √2) := erf_nonneg (by positivity)
      have h4 := erf_lt_one (|c - x| / s / √2)
      constructor <;> linarith
    · simp [erf_zero]
    · intro d
      have : |c - (c + d)| = |c - (c - d)| := by
        rw [show c - (c + d) = -d by ring, show c - (c - d) = d by ring, abs_neg]
      rw [this]
    · intro x y hxy
      have : |c - x| ≤ |c - y| := by rwa [abs_sub_comm c x, abs_sub_comm c y]
      have : erf (|c - x| / s / √2) ≤ erf (|c - y| / s / √2) := erf_strictMono.monotone (by gcongr)
      linarith
    · intro hall
      exact absurd (stdDev_eq_zero.2 hall) h0
    · intro _
      refine ⟨fun x => by have := erf_lt_one (|c - x| / s / √2); linarith, ?_⟩
      intro x y hxy
      have : |c - x| < |c - y| := by rwa [abs_sub_comm c x, abs_sub_comm c y]
      have : erf (|c - x| / s / √2) < erf (|c - y| / s / √2) := erf_strictMono (by gcongr)
      linarith

/-- A model with two different samples exists, so the non-degenerate case is not empty. -/
example : ∃ m, FieldModel.new (realOps fun _ _ => .error .structError) "alt" "float" (some 5) = .ok m ∧
    ∃ a ∈ windowed (some 5) (added [FieldOp.add (.many [(1 : ℝ), 3])]),
      a ≠ average (windowed (some 5) (added [FieldOp.add (.many [(1 : ℝ), 3])])) := by
  refine ⟨_, rfl, 1, ?_, ?_⟩ <;> simp [windowed, lastN, added, SampleArg.toList, average] <;> norm_num

end NR

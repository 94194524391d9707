import Verif.Model.Capacity
import Verif.Spec.Capacity
import Mathlib.Analysis.SpecialFunctions.BinaryEntropy
import Mathlib.Topology.Order.IntermediateValue
/-
C98: the capacity study.
-/
namespace NR
open NR.Capacity NR.Spec Real Set

theorem c_eq (p : ℝ) : c p = 1 - binEntropy p / log 2 := by
  unfold c logb
  rw [binEntropy_eq_negMulLog_add_negMulLog_one_sub]
  simp only [negMulLog]
  ring

theorem mutual_eq (q p : ℝ) (hq0 : 0 ≤ q) (hq1 : q ≤ 1) (hp0 : 0 < p) (hp1 : p < 1) :
    mutualInfo (sentAndSeen q p) = (binEntropy (q * (1 - p) + (1 - q) * p) - binEntropy p) / log 2 := by
  have h1 : 0 < q * (1 - p) + (1 - q) * p := by
    rcases hq0.eq_or_lt with rfl | h
    · simpa using hp0
    · have := mul_pos h (sub_pos.2 hp1)
      have := mul_nonneg (sub_nonneg.2 hq1) hp0.le
      linarith
  have h0 : 0 < q * p + (1 - q) * (1 - p) := by
    rcases hq0.eq_or_lt with rfl | h
    · simpa using hp1
    · have := mul_pos h hp0
      have := mul_nonneg (sub_nonneg.2 hq1) (sub_nonneg.2 hp1.le)
      linarith
  have term : ∀ m w s : ℝ, 0 < w → 0 < s → m * w * logb 2 (m * w / (m * s)) = m * (w * (log w - log s)) / log 2 := by
    intro m w s hw hs
    by_cases hm : m = 0
    · simp [hm]
    · rw [mul_div_mul_left _ _ hm, logb, log_div hw.ne' hs.ne']
      ring
  have e1 : q * (1 - p) + q * p = q * 1 := by ring
  have e0 : (1 - q) * p + (1 - q) * (1 - p) = (1 - q) * 1 := by ring
  have hs : 1 - (q * (1 - p) + (1 - q) * p) = q * p + (1 - q) * (1 - p) := by ring
  unfold mutualInfo sentAndSeen
  simp only [Fintype.sum_bool, if_true, Bool.false_eq_true, if_false, reduceCtorEq]
  rw [e1, e0, mul_assoc q 1, mul_assoc q 1, mul_assoc (1 - q) 1, mul_assoc (1 - q) 1, one_mul, one_mul,
    term q _ _ (sub_pos.2 hp1) h1, term q _ _ hp0 h0, term (1 - q) _ _ hp0 h1, term (1 - q) _ _ (sub_pos.2 hp1) h0,
    binEntropy_eq_negMulLog_add_negMulLog_one_sub, binEntropy_eq_negMulLog_add_negMulLog_one_sub, hs]
  simp only [negMulLog]
  ring

/-- C98: the number plotted as capacity is the capacity of the channel: the largest mutual information over all distributions of
what is sent. -/
theorem c98_capacity (p : ℝ) (hp0 : 0 < p) (hp1 : p < 1) :
    IsGreatest {i | ∃ q, 0 ≤ q ∧ q ≤ 1 ∧ i = mutualInfo (sentAndSeen q p)} (c p) := by
  have hl : 0 < log 2 := log_pos (by norm_num)
  constructor
  · refine ⟨2⁻¹, by norm_num, by norm_num, ?_⟩
    rw [mutual_eq _ _ (by norm_num) (by norm_num) hp0 hp1, c_eq,
      show (2⁻¹ * (1 - p) + (1 - 2⁻¹) * p : ℝ) = 2⁻¹ by ring, binEntropy_two_inv]
    field_simp
  · rintro i ⟨q, hq0, hq1, rfl⟩
    rw [mutual_eq _ _ hq0 hq1 hp0 hp1, c_eq, sub_div]
    have := div_le_div_of_nonneg_right (binEntropy_le_log_two (p := q * (1 - p) + (1 - q) * p)) hl.le
    rw [div_self hl.ne'] at this
    linarith

theorem c_anti : StrictAntiOn c (Icc 0 2⁻¹) := by
  intro a ha b hb hab
  have := binEntropy_strictMonoOn ha hb hab
  have hl : 0 < log 2 := log_pos (by norm_num)
  rw [c_eq, c_eq]
  have := div_lt_div_of_pos_right this hl
  linarith

/-- C98: for flip probabilities up to 1/2 both curves fall, and the modified one is strictly above the capacity of the channel and not
above that of the channel with half the flips. -/
theorem c98_modified (r p : ℝ) (hr0 : 0 < r) (hr1 : r ≤ 1) (hp0 : 0 < p) (hp1 : p ≤ 1 / 2) :
    0 ≤ c p ∧ c p < modified r p ∧ modified r p ≤ c (p / 2) ∧ c (p / 2) < 1 ∧
    ∀ p', p < p' → p' ≤ 1 / 2 → c p' < c p ∧ modified r p' < modified r p := by
  have hl : 0 < log 2 := log_pos (by norm_num)
  have m : ∀ x, 0 ≤ x → x ≤ 1 / 2 → x ∈ Icc (0 : ℝ) 2⁻¹ := fun x h0 h1 => ⟨h0, by linarith⟩
  have h2 : c p < c (p / 2) := c_anti (m _ (by linarith) (by linarith)) (m _ hp0.le hp1) (by linarith)
  have h3 : c (p / 2) < 1 := by
    rw [c_eq]
    have := div_pos (binEntropy_pos (p := p / 2) (by linarith) (by linarith)) hl
    linarith
  refine ⟨?_, ?_, ?_, h3, ?_⟩
  · rw [c_eq]
    have := div_le_div_of_nonneg_right (binEntropy_le_log_two (p := p)) hl.le
    rw [div_self hl.ne'] at this
    linarith
  · unfold modified; nlinarith
  · unfold modified; nlinarith
  · intro p' h h'
    have a := c_anti (m _ hp0.le hp1) (m _ (by linarith) h') h
    have b := c_anti (m _ (by linarith : 0 ≤ p / 2) (by linarith)) (m _ (by linarith : 0 ≤ p' / 2) (by linarith)) (by linarith)
    refine ⟨a, ?_⟩
    unfold modified
    nlinarith

theorem c_continuous : Continuous c := by
  have : c = fun p => 1 - binEntropy p / log 2 := funext c_eq
  rw [this]
  exact continuous_const.sub (binEntropy_continuous.div_const _)

/-- C98: a code of rate `R` meets the capacity at exactly one flip probability below 1/2; below it, and only there, the capacity is
larger than `R`; and the modified curve still is at some larger flip probability. -/
theorem c98_threshold (R r : ℝ) (hR0 : 0 < R) (hR1 : R < 1) (hr0 : 0 < r) (hr1 : r ≤ 1) :
    ∃ p, 0 < p ∧ p < 1 / 2 ∧ c p = R ∧ (∀ p', 0 < p' → p' < 1 / 2 → (R < c p' ↔ p' < p) ∧ (c p' = R ↔ p' = p)) ∧
      ∃ p', p < p' ∧ p' < 1 / 2 ∧ ∀ x, 0 < x → x ≤ p' → R < modified r x := by
  have c0 : c 0 = 1 := by rw [c_eq]; simp
  have c2 : c 2⁻¹ = 0 := by
    rw [c_eq, binEntropy_two_inv, div_self (log_pos (by norm_num)).ne', sub_self]
  obtain ⟨p, hp, he⟩ := intermediate_value_Icc' (by norm_num : (0 : ℝ) ≤ 2⁻¹) c_continuous.continuousOn
    (show R ∈ Icc (c 2⁻¹) (c 0) by rw [c0, c2]; exact ⟨hR0.le, hR1.le⟩)
  have hp0 : 0 < p := by
    rcases hp.1.eq_or_lt with h | h
    · rw [← h, c0] at he; linarith
    · exact h
  have hp1 : p < 1 / 2 := by
    rcases hp.2.eq_or_lt with h | h
    · rw [h, c2] at he; linarith
    · linarith
  refine ⟨p, hp0, hp1, he, ?_, ?_⟩
  · intro p' h0 h1
    have hm : p' ∈ Icc (0 : ℝ) 2⁻¹ := ⟨h0.le, by linarith⟩
    rw [← he]
    exact ⟨c_anti.lt_iff_gt hp hm, ⟨fun h => c_anti.injOn hm hp h, fun h => by rw [h]⟩⟩
  · have hcont : Continuous (modified r) := by
      unfold modified
      exact (continuous_const.mul c_continuous).add (continuous_const.mul (c_continuous.comp (continuous_id.div_const 2)))
    have hlt : R < modified r p := by rw [← he]; exact (c98_modified r p hr0 hr1 hp0 hp1.le).2.1
    have hev := (hcont.tendsto p).eventually (lt_mem_nhds hlt)
    obtain ⟨δ, hδ, hb⟩ := Metric.eventually_nhds_iff.1 hev
    have hmin : 0 < min (δ / 2) ((1 / 2 - p) / 2) := lt_min (by linarith) (by linarith)
    refine ⟨p + min (δ / 2) ((1 / 2 - p) / 2), by linarith, ?_, ?_⟩
    · have := min_le_right (δ / 2) ((1 / 2 - p) / 2)
      linarith
    · have hd : R < modified r (p + min (δ / 2) ((1 / 2 - p) / 2)) := by
        apply hb
        rw [dist_eq, add_sub_cancel_left, abs_of_pos hmin]
        have := min_le_left (δ / 2) ((1 / 2 - p) / 2)
        linarith
      intro x hx0 hx
      rcases hx.eq_or_lt with rfl | hlt'
      · exact hd
      · have := min_le_right (δ / 2) ((1 / 2 - p) / 2)
        have := ((c98_modified r x hr0 hr1 hx0 (by linarith)).2.2.2.2 _ hlt' (by linarith)).2
        linarith

/-- C98: the plotted arrays: 50 points each, at flip probabilities from 0.03 to 0.1 in increasing order; both curves fall, and the
modified one is above the other at every point. -/
theorem c98_curves : f.length = 50 ∧ capacity.length = 50 ∧ nrCapacity.length = 50 ∧ f.head? = some 0.03 ∧ f.getLast? = some 0.1 ∧
    f.Pairwise (· < ·) ∧ capacity.Pairwise (· > ·) ∧ nrCapacity.Pairwise (· > ·) ∧
    ∀ (i : Nat) (a b : ℝ), capacity[i]? = some a → nrCapacity[i]? = some b → 0 ≤ a ∧ a < b ∧ b < 1 := by
  have hmem : ∀ x ∈ f, (0 : ℝ) < x ∧ x ≤ 1 / 2 := by
    intro x hx
    obtain ⟨i, hi, rfl⟩ := List.mem_map.1 hx
    have hi : (i : ℝ) ≤ 49 := by exact_mod_cast Nat.le_of_lt_succ (List.mem_range.1 hi)
    have h0 : (0 : ℝ) ≤ i := Nat.cast_nonneg i
    constructor <;> norm_num <;> linarith
  have hord : f.Pairwise (· < ·) := by
    refine List.Pairwise.map _ ?_ List.pairwise_lt_range
    intro a b hab
    have : (a : ℝ) < b := by exact_mod_cast hab
    norm_num
    linarith
  have hcap : ∀ (g : ℝ → ℝ), (∀ x y, 0 < x → x < y → y ≤ 1 / 2 → g y < g x) → (f.map g).Pairwise (· > ·) := by
    intro g hg
    rw [List.pairwise_map]
    refine hord.imp_of_mem ?_
    intro a b ha hb hab
    exact hg a b (hmem a ha).1 hab (hmem b hb).2
  refine ⟨by simp [f], by simp [capacity, f], by simp [nrCapacity, f], ?_, ?_, hord, ?_, ?_, ?_⟩
  · simp [f, List.range_succ_eq_map]
  · simp only [f, List.range_succ, List.map_append, List.map_cons, List.map_nil, List.getLast?_append, List.getLast?_singleton,
      Option.some_or]
    norm_num
  · exact hcap c fun x y hx hxy hy => ((c98_modified 1 x one_pos le_rfl hx (by linarith)).2.2.2.2 y hxy hy).1
  · exact hcap _ fun x y hx hxy hy => ((c98_modified 0.24 x (by norm_num) (by norm_num) hx (by linarith)).2.2.2.2 y hxy hy).2
  · intro i a b ha hb
    unfold capacity at ha
    unfold nrCapacity at hb
    rw [List.getElem?_map] at ha hb
    cases hx : f[i]? with
    | none => rw [hx] at ha; cases ha
    | some x =>
      rw [hx] at ha hb
      simp only [Option.map_some, Option.some.injEq] at ha hb
      subst ha; subst hb
      obtain ⟨h0, h1⟩ := hmem x (List.mem_of_getElem? hx)
      obtain ⟨a1, a2, a3, a4, -⟩ := c98_modified 0.24 x (by norm_num) (by norm_num) h0 h1
      exact ⟨a1, a2, by linarith⟩

theorem entReal_eq (p : ℝ) : entReal p = binEntropy p / log 2 := by
  unfold entReal logb
  rw [binEntropy_eq_negMulLog_add_negMulLog_one_sub]
  simp only [negMulLog]
  ring

theorem entMeasured_eq (p g : ℝ) : entMeasured p g = binEntropy (p + g) / log 2 := entReal_eq (p + g)

theorem seen_eq (q p : ℝ) : seenEntropy (sentAndSeen q p) = binEntropy (q * (1 - p) + (1 - q) * p) / log 2 := by
  rw [binEntropy_eq_negMulLog_add_negMulLog_one_sub]
  unfold seenEntropy sentAndSeen logb
  simp only [Fintype.sum_bool, if_true, Bool.false_eq_true, if_false, reduceCtorEq, negMulLog]
  rw [show 1 - (q * (1 - p) + (1 - q) * p) = q * p + (1 - q) * (1 - p) by ring]
  ring

/-- C98: flips never lower the entropy: what arrives has at least the entropy of what was sent. -/
theorem c98_entropy (p0 g : ℝ) (hp0 : 0 ≤ p0) (hp1 : p0 ≤ 1) (hg0 : 0 ≤ g) (hg1 : g ≤ 1) :
    entReal p0 ≤ seenEntropy (sentAndSeen (1 - p0) g) := by
  have hl : 0 < log 2 := log_pos (by norm_num)
  rw [entReal_eq, seen_eq]
  refine div_le_div_of_nonneg_right ?_ hl.le
  have := strictConcave_binEntropy.concaveOn.2 (show 1 - p0 ∈ Icc (0 : ℝ) 1 from ⟨by linarith, by linarith⟩)
    (show p0 ∈ Icc (0 : ℝ) 1 from ⟨hp0, hp1⟩) (sub_nonneg.2 hg1) hg0 (by ring)
  simp only [smul_eq_mul, binEntropy_one_sub] at this
  rw [show (1 - p0) * (1 - g) + (1 - (1 - p0)) * g = (1 - g) * (1 - p0) + g * p0 by ring]
  linarith

/-- C98, refuted: the entropy computed as the measured one is not that of what arrives. It is strictly smaller than that of the source
whenever zeros are the more frequent bits, while that of what arrives is at least as large. -/
theorem c98_measured_false (p0 g : ℝ) (hp0 : 1 / 2 ≤ p0) (hg0 : 0 < g) (hs : p0 + g ≤ 1) :
    entMeasured p0 g < entReal p0 ∧ entMeasured p0 g < seenEntropy (sentAndSeen (1 - p0) g) := by
  have hl : 0 < log 2 := log_pos (by norm_num)
  have h : entMeasured p0 g < entReal p0 := by
    rw [entReal_eq, entMeasured_eq]
    refine div_lt_div_of_pos_right ?_ hl
    exact binEntropy_strictAntiOn ⟨by linarith, by linarith⟩ ⟨by linarith, hs⟩ (by linarith)
  exact ⟨h, h.trans_le (c98_entropy p0 g (by linarith) (by linarith) hg0.le (by linarith))⟩

/-- The numbers of the scripts meet the hypotheses. -/
example : IsGreatest {i | ∃ q, 0 ≤ q ∧ q ≤ 1 ∧ i = mutualInfo (sentAndSeen q 0.06)} (c 0.06) ∧ c 0.06 < modified 0.24 0.06 ∧
    entMeasured 0.9 0.05 < entReal 0.9 :=
  ⟨c98_capacity _ (by norm_num) (by norm_num),
    (c98_modified _ _ (by norm_num) (by norm_num) (by norm_num) (by norm_num)).2.1,
    (c98_measured_false _ _ (by norm_num) (by norm_num) (by norm_num)).1⟩

/-- The rate of the code of the simulation. -/
example : ∃ p, 0 < p ∧ p < 1 / 2 ∧ c p = 2 / 3 ∧ ∃ p' > p, 2 / 3 < modified 0.24 p' := by
  obtain ⟨p, a, b, c', -, p', d, -, e⟩ := c98_threshold (2 / 3) 0.24 (by norm_num) (by norm_num) (by norm_num) (by norm_num)
  exact ⟨p, a, b, c', p', d, e p' (by linarith) le_rfl⟩

end NR

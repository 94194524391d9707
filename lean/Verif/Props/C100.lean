import Verif.Model.MergeDist
import Verif.Spec.MergeDist
import Verif.Props.C38_C39
/-
C100: the distances by which clusters are merged.
-/
namespace NR
open Spec

theorem relEntr_ne_bot (x y : ℝ) : relEntr x y ≠ ⊥ := by
  unfold relEntr
  split
  · exact EReal.coe_ne_bot _
  · split
    · simp
    · simp

theorem klPair {a b : ℝ} : scipyKL [1 - a, a] [1 - b, b] 2 =
    .ok ((relEntr (1 - a) (1 - b) + relEntr a b) / ((Real.log 2 : ℝ) : EReal)) := by
  simp [scipyKL, bcast, bind, Except.bind]

theorem add_top' {x : EReal} (h : x ≠ ⊥) : x + ⊤ = ⊤ := EReal.add_top_of_ne_bot h

theorem kl_nonbot (a b : ℝ) : (relEntr (1 - a) (1 - b) + relEntr a b) / ((Real.log 2 : ℝ) : EReal) ≠ ⊥ := by
  have hl : (0 : ℝ) < Real.log 2 := Real.log_pos (by norm_num)
  intro h
  have h1 : relEntr (1 - a) (1 - b) + relEntr a b ≠ ⊥ := by
    rw [Ne, EReal.add_eq_bot_iff]
    simp [relEntr_ne_bot]
  generalize relEntr (1 - a) (1 - b) + relEntr a b = x at h h1
  induction x with
  | bot => exact h1 rfl
  | coe x => rw [← EReal.coe_div] at h; exact EReal.coe_ne_bot _ h
  | top => rw [EReal.top_div_of_pos_ne_top (by exact_mod_cast hl) (EReal.coe_ne_top _)] at h; exact absurd h (by simp)

theorem kl_top {a b : ℝ} (h : relEntr (1 - a) (1 - b) = ⊤ ∨ relEntr a b = ⊤) :
    (relEntr (1 - a) (1 - b) + relEntr a b) / ((Real.log 2 : ℝ) : EReal) = ⊤ := by
  have hl : (0 : ℝ) < Real.log 2 := Real.log_pos (by norm_num)
  have : relEntr (1 - a) (1 - b) + relEntr a b = ⊤ := by
    rcases h with h | h
    · rw [h, EReal.top_add_of_ne_bot (relEntr_ne_bot _ _)]
    · rw [h, EReal.add_top_of_ne_bot (relEntr_ne_bot _ _)]
  rw [this, EReal.top_div_of_pos_ne_top (by exact_mod_cast hl) (EReal.coe_ne_top _)]

theorem relEntr_top {x y : ℝ} (hx : 0 < x) (hy : y = 0) : relEntr x y = ⊤ := by
  unfold relEntr
  rw [if_neg (by rw [hy]; simp), if_neg (by intro h; exact hx.ne' h.1)]

theorem jeffreys_pos {a b : ℝ} (hab : a ≠ b) (a0 : 0 < a) (a1 : a < 1) (b0 : 0 < b) (b1 : b < 1) :
    0 < (a - b) * Real.logb 2 (a * (1 - b) / (b * (1 - a))) := by
  have a1' : 0 < 1 - a := by linarith
  have b1' : 0 < 1 - b := by linarith
  rcases lt_or_gt_of_ne hab with h | h
  · apply mul_pos_of_neg_of_neg (by linarith)
    apply Real.logb_neg (by norm_num) (by positivity)
    rw [div_lt_one (by positivity)]
    nlinarith
  · apply mul_pos (by linarith)
    apply Real.logb_pos (by norm_num)
    rw [one_lt_div (by positivity)]
    nlinarith

theorem kl_coin {a b : ℝ} (ha : 0 ≤ a) (ha' : a ≤ 1) (hb : 0 ≤ b) (hb' : b ≤ 1) :
    clipE 0 10 ((relEntr (1 - a) (1 - b) + relEntr a b) / ((Real.log 2 : ℝ) : EReal) +
      (relEntr (1 - b) (1 - a) + relEntr b a) / ((Real.log 2 : ℝ) : EReal)) = coinDivergence a b := by
  have hl : (0 : ℝ) < Real.log 2 := Real.log_pos (by norm_num)
  have ct : clipE 0 10 ⊤ = 10 := by
    unfold clipE
    simp only [le_top, sup_of_le_right, inf_of_le_left]
    exact EReal.toReal_coe 10
  by_cases hab : a = b
  · subst hab
    have h0 : ∀ x : ℝ, 0 ≤ x → relEntr x x = 0 := by
      intro x hx
      unfold relEntr
      rcases hx.eq_or_lt with h | h
      · rw [if_neg (by rw [← h]; simp), if_pos ⟨h.symm, hx⟩]
      · rw [if_pos ⟨h, h⟩, div_self h.ne', Real.log_one, mul_zero]; rfl
    rw [h0 a ha, h0 (1 - a) (by linarith)]
    unfold coinDivergence
    rw [if_pos rfl]
    simp [clipE]
  · unfold coinDivergence
    rw [if_neg hab]
    by_cases hin : 0 < a ∧ a < 1 ∧ 0 < b ∧ b < 1
    · rw [if_pos hin]
      obtain ⟨a0, a1, b0, b1⟩ := hin
      have a1' : 0 < 1 - a := by linarith
      have b1' : 0 < 1 - b := by linarith
      unfold relEntr
      rw [if_pos ⟨a1', b1'⟩, if_pos ⟨a0, b0⟩, if_pos ⟨b1', a1'⟩, if_pos ⟨b0, a0⟩]
      have e : ((1 - a) * Real.log ((1 - a) / (1 - b)) + a * Real.log (a / b)) / Real.log 2 +
          ((1 - b) * Real.log ((1 - b) / (1 - a)) + b * Real.log (b / a)) / Real.log 2 =
          (a - b) * Real.logb 2 (a * (1 - b) / (b * (1 - a))) := by
        unfold Real.logb
        rw [Real.log_div a1'.ne' b1'.ne', Real.log_div a0.ne' b0.ne', Real.log_div b1'.ne' a1'.ne', Real.log_div b0.ne' a0.ne',
          Real.log_div (mul_pos a0 b1').ne' (mul_pos b0 a1').ne', Real.log_mul a0.ne' b1'.ne', Real.log_mul b0.ne' a1'.ne']
        ring
      have hnn := (jeffreys_pos hab a0 a1 b0 b1).le
      unfold clipE
      rw [← EReal.coe_add, ← EReal.coe_add, ← EReal.coe_div, ← EReal.coe_div, ← EReal.coe_add, e, ← EReal.coe_strictMono.monotone.map_max, ← EReal.coe_strictMono.monotone.map_min,
        EReal.toReal_coe, max_eq_right hnn]
    · rw [if_neg hin]
      have key : relEntr (1 - a) (1 - b) = ⊤ ∨ relEntr a b = ⊤ ∨ relEntr (1 - b) (1 - a) = ⊤ ∨ relEntr b a = ⊤ := by
        by_cases h1 : a = 0
        · exact .inr (.inr (.inr (relEntr_top (lt_of_le_of_ne hb (by rw [← h1]; exact hab)) h1)))
        by_cases h2 : b = 0
        · exact .inr (.inl (relEntr_top (lt_of_le_of_ne ha (Ne.symm h1)) h2))
        by_cases h3 : a = 1
        · refine .inr (.inr (.inl (relEntr_top ?_ (by linarith))))
          have : b ≠ 1 := fun h => hab (h3.trans h.symm)
          have := lt_of_le_of_ne hb' this
          linarith
        by_cases h4 : b = 1
        · refine .inl (relEntr_top ?_ (by linarith))
          have := lt_of_le_of_ne ha' h3
          linarith
        exact absurd ⟨lt_of_le_of_ne ha (Ne.symm h1), lt_of_le_of_ne ha' h3, lt_of_le_of_ne hb (Ne.symm h2), lt_of_le_of_ne hb' h4⟩ hin
      rcases key with h | h | h | h
      · rw [kl_top (.inl h), EReal.top_add_of_ne_bot (kl_nonbot _ _), ct]
      · rw [kl_top (.inr h), EReal.top_add_of_ne_bot (kl_nonbot _ _), ct]
      · rw [kl_top (.inl h), EReal.add_top_of_ne_bot (kl_nonbot _ _), ct]
      · rw [kl_top (.inr h), EReal.add_top_of_ne_bot (kl_nonbot _ _), ct]

/-- The row of a cluster at a position. -/
theorem built_row {c : Cluster} {s : List (List Bool)} (h : Built Mixed c s) {i : Nat} (hi : i < c.data.length) :
    ∃ r, c.dist[i]? = some r ∧ r.map (fun (x : ℚ) => (x : ℝ)) = [1 - share s i, share s i] ∧ 0 ≤ share s i ∧ share s i ≤ 1 := by
  obtain ⟨h1, h2, _, _, h5⟩ := c37_counts c s h
  obtain ⟨_, g2, g3, _, _, _⟩ := h5 i hi
  have hn : (0 : ℝ) < s.length := by rw [← h1]; exact_mod_cast h2
  have hz : (zerosAt s i : ℝ) + onesAt s i = s.length := by rw [← h1]; exact_mod_cast g2
  refine ⟨_, g3, ?_, by unfold share; positivity, ?_⟩
  · unfold share
    rw [h1]
    simp only [List.map_cons, List.map_nil]
    push_cast
    congr 1
    rw [eq_sub_iff_add_eq, ← add_div, hz, div_self hn.ne']
  · unfold share
    rw [div_le_one hn]
    have : (0 : ℝ) ≤ zerosAt s i := by positivity
    linarith

theorem built_nonempty {c : Cluster} {s : List (List Bool)} (h : Built Mixed c s) : ∃ b ∈ s, b ≠ [] := by
  induction h with
  | start b _ _ hb _ => exact ⟨b, by simp, by rintro rfl; simp [Mixed] at hb⟩
  | add _ _ _ _ _ _ ih => obtain ⟨b, h1, h2⟩ := ih; exact ⟨b, by simp [h1], h2⟩
  | merge _ _ _ _ _ _ _ _ ih _ => obtain ⟨b, h1, h2⟩ := ih; exact ⟨b, by simp [h1], h2⟩
  | renumber _ _ _ _ ih => exact ih

theorem zip_mapM {c d : Cluster} (hL : c.data.length = d.data.length)
    (f : List ℚ × List ℚ → Except PyErr ℝ) (g : Nat → ℝ)
    (h : ∀ i p q, i < c.data.length → c.dist[i]? = some p → d.dist[i]? = some q → f (p, q) = .ok (g i)) :
    (c.dist.zip d.dist).mapM f = .ok ((List.range c.data.length).map g) := by
  have hc : c.dist.length = c.data.length := by simp [Cluster.dist]
  have hd : d.dist.length = d.data.length := by simp [Cluster.dist]
  have e : c.dist.zip d.dist = (List.range c.data.length).map fun i => (c.dist.getD i [], d.dist.getD i []) := by
    apply List.ext_getElem
    · simp [hc, hd, hL]
    · intro i h1 h2
      simp only [List.length_map, List.length_range] at h2
      simp [List.getElem?_eq_getElem (by omega : i < c.dist.length), List.getElem?_eq_getElem (by omega : i < d.dist.length)]
  rw [e, List.mapM_map]
  apply mapM_map_ok
  intro i hi
  rw [List.mem_range] at hi
  apply h i _ _ hi
  · rw [List.getD_eq_getElem?_getD, List.getElem?_eq_getElem (by omega : i < c.dist.length)]; rfl
  · rw [List.getD_eq_getElem?_getD, List.getElem?_eq_getElem (by omega : i < d.dist.length)]; rfl

theorem meanR_range (L : Nat) (g : Nat → ℝ) : meanR ((List.range L).map g) = perBit L g := by
  unfold meanR perBit
  rw [List.length_map, List.length_range]
  have h : ((List.range L).map g).sum = ∑ i ∈ Finset.range L, g i := by
    induction L with
    | zero => simp
    | succ n ih => rw [List.range_succ, List.map_append, List.sum_append, ih, Finset.sum_range_succ]; simp
  rw [h]

/-- C100: the Hellinger merge distance of two clusters is the weight of their sizes times the average, over the bit positions, of
the Hellinger distance of their shares of ones. -/
theorem c100_hellinger (w : Weight) (c d : Cluster) (s t : List (List Bool)) (hc : Built Mixed c s) (hd : Built Mixed d t)
    (hL : c.data.length = d.data.length) :
    MergeDist.of .hellinger w c d = .ok (sizeWeight w s t * perBit c.data.length fun i => coinHellinger (share s i) (share t i)) := by
  change hellingerMerge w c d = _
  unfold hellingerMerge
  rw [if_neg (by simpa using hL)]
  rw [zip_mapM hL _ (fun i => coinHellinger (share s i) (share t i))]
  · simp only [bind, Except.bind, meanR_range]
    rw [(c37_counts c s hc).1, (c37_counts d t hd).1]
    cases w <;> rfl
  · intro i p q hi hp hq
    obtain ⟨r, h1, h2, h3, h4⟩ := built_row hc hi
    obtain ⟨r', g1, g2, g3, g4⟩ := built_row hd (hL ▸ hi)
    rw [hp] at h1; rw [hq] at g1
    injection h1 with h1; injection g1 with g1
    subst h1 g1
    simp only [h2, g2, bcast, bind, Except.bind, List.length_cons, List.length_nil, if_true]
    simp only [hellingerVec, coinHellinger, List.zipWith_cons_cons, List.zipWith_nil_right, List.sum_cons, List.sum_nil, add_zero]
    rw [add_comm (√_)]

/-- C100: the Kullback-Leibler merge distance, likewise. -/
theorem c100_kl (w : Weight) (c d : Cluster) (s t : List (List Bool)) (hc : Built Mixed c s) (hd : Built Mixed d t)
    (hL : c.data.length = d.data.length) :
    MergeDist.of .klDiv w c d = .ok (sizeWeight w s t * perBit c.data.length fun i => coinDivergence (share s i) (share t i)) := by
  change klDist w c d = _
  unfold klDist
  rw [if_neg (by simpa using hL)]
  rw [zip_mapM hL _ (fun i => coinDivergence (share s i) (share t i))]
  · simp only [bind, Except.bind, meanR_range]
    rw [(c37_counts c s hc).1, (c37_counts d t hd).1]
    cases w <;> rfl
  · intro i p q hi hp hq
    obtain ⟨r, h1, h2, h3, h4⟩ := built_row hc hi
    obtain ⟨r', g1, g2, g3, g4⟩ := built_row hd (hL ▸ hi)
    rw [hp] at h1; rw [hq] at g1
    injection h1 with h1; injection g1 with g1
    subst h1 g1
    simp only [h2, g2, klPair, bind, Except.bind]
    rw [kl_coin h3 h4 g3 g4]

/-- C100: clusters of buffers of different lengths cannot be compared. -/
theorem c100_length (m : MergeDist) (w : Weight) (c d : Cluster) (hL : c.data.length ≠ d.data.length) :
    Raises (MergeDist.of m w c d) .valueError := by
  cases m <;> simp [MergeDist.of, klDist, hellingerMerge, hL, Raises]

theorem coinHellinger_props {a b : ℝ} (ha : 0 ≤ a) (ha' : a ≤ 1) (hb : 0 ≤ b) (hb' : b ≤ 1) :
    coinHellinger a b = coinHellinger b a ∧ 0 ≤ coinHellinger a b ∧ coinHellinger a b ≤ 1 ∧ (coinHellinger a b = 0 ↔ a = b) := by
  have hs : ∀ x y : ℝ, 0 ≤ x → 0 ≤ y → √(x * y) ≤ (x + y) / 2 ∧ (√(x * y) = (x + y) / 2 → x = y) := by
    intro x y hx hy
    have e : √(x * y) = √x * √y := Real.sqrt_mul hx y
    have e1 := Real.sq_sqrt hx
    have e2 := Real.sq_sqrt hy
    constructor
    · rw [e]; nlinarith [sq_nonneg (√x - √y)]
    · intro h
      rw [e] at h
      have : (√x - √y) ^ 2 = 0 := by nlinarith
      have : √x = √y := by nlinarith [pow_eq_zero_iff (two_ne_zero) |>.1 this]
      rw [← e1, ← e2, this]
  have h1 := hs a b ha hb
  have h2 := hs (1 - a) (1 - b) (by linarith) (by linarith)
  unfold coinHellinger
  refine ⟨by rw [mul_comm a, mul_comm (1 - a)], Real.sqrt_nonneg _, ?_, ?_⟩
  · rw [Real.sqrt_le_one]
    have := Real.sqrt_nonneg (a * b)
    have := Real.sqrt_nonneg ((1 - a) * (1 - b))
    linarith
  · constructor
    · intro h
      rw [Real.sqrt_eq_zero (by linarith [h1.1, h2.1])] at h
      exact h1.2 (by linarith [h1.1, h2.1])
    · rintro rfl
      rw [Real.sqrt_mul_self ha, Real.sqrt_mul_self (by linarith)]
      simp

theorem coinDivergence_props (a b : ℝ) :
    coinDivergence a b = coinDivergence b a ∧ 0 ≤ coinDivergence a b ∧ coinDivergence a b ≤ 10 ∧ (coinDivergence a b = 0 ↔ a = b) := by
  by_cases hab : a = b
  · subst hab; simp [coinDivergence]
  · by_cases hin : 0 < a ∧ a < 1 ∧ 0 < b ∧ b < 1
    · obtain ⟨a0, a1, b0, b1⟩ := hin
      have a1' : 0 < 1 - a := by linarith
      have b1' : 0 < 1 - b := by linarith
      have hp := jeffreys_pos hab a0 a1 b0 b1
      have e1 : coinDivergence a b = min 10 ((a - b) * Real.logb 2 (a * (1 - b) / (b * (1 - a)))) := by
        unfold coinDivergence; rw [if_neg hab, if_pos ⟨a0, a1, b0, b1⟩]
      have e2 : coinDivergence b a = min 10 ((b - a) * Real.logb 2 (b * (1 - a) / (a * (1 - b)))) := by
        unfold coinDivergence; rw [if_neg (Ne.symm hab), if_pos ⟨b0, b1, a0, a1⟩]
      have hpos : 0 < coinDivergence a b := by rw [e1]; exact lt_min (by norm_num) hp
      refine ⟨?_, hpos.le, by rw [e1]; exact min_le_left _ _, by simp [hpos.ne', hab]⟩
      rw [e1, e2, ← inv_div (a * (1 - b)), Real.logb_inv]
      congr 1; ring
    · have e1 : coinDivergence a b = 10 := by unfold coinDivergence; rw [if_neg hab, if_neg hin]
      have e2 : coinDivergence b a = 10 := by
        unfold coinDivergence
        rw [if_neg (Ne.symm hab), if_neg (fun h => hin ⟨h.2.2.1, h.2.2.2, h.1, h.2.1⟩)]
      rw [e1, e2]
      simp [hab]

/-- C100: both distances are symmetric, lie between 0 and the weight times 1 (Hellinger) or 10 (Kullback-Leibler), and vanish
exactly if the shares of ones agree at every bit position. -/
theorem c100_distance (m : MergeDist) (w : Weight) (c d : Cluster) (s t : List (List Bool)) (hc : Built Mixed c s)
    (hd : Built Mixed d t) (hL : c.data.length = d.data.length) :
    ∃ x : ℝ, MergeDist.of m w c d = .ok x ∧ MergeDist.of m w d c = .ok x ∧ 0 ≤ x ∧ x ≤ sizeWeight w s t * opposite m ∧
      (x = 0 ↔ ∀ i, i < c.data.length → share s i = share t i) := by
  have hw : 0 < sizeWeight w s t ∧ sizeWeight w s t = sizeWeight w t s := by
    have h1 : 0 < s.length := by rw [← (c37_counts c s hc).1]; exact (c37_counts c s hc).2.1
    have h2 : 0 < t.length := by rw [← (c37_counts d t hd).1]; exact (c37_counts d t hd).2.1
    have h1' : (0 : ℝ) < s.length := by exact_mod_cast h1
    have h2' : (0 : ℝ) < t.length := by exact_mod_cast h2
    cases w <;> simp only [sizeWeight] <;> refine ⟨by positivity, ?_⟩ <;> first | trivial | rw [add_comm]
  have hpos : 0 < c.data.length := by
    obtain ⟨h1, h2, h3, _⟩ := c37_counts c s hc
    obtain ⟨b, hb⟩ := built_nonempty hc
    rw [← h3 b hb.1]
    exact List.length_pos_iff.2 hb.2
  have hposR : (0 : ℝ) < c.data.length := by exact_mod_cast hpos
  have main : ∀ (f : ℝ → ℝ → ℝ) (B : ℝ), (∀ i, i < c.data.length → f (share s i) (share t i) = f (share t i) (share s i) ∧
      0 ≤ f (share s i) (share t i) ∧ f (share s i) (share t i) ≤ B ∧ (f (share s i) (share t i) = 0 ↔ share s i = share t i)) →
      perBit c.data.length (fun i => f (share s i) (share t i)) = perBit d.data.length (fun i => f (share t i) (share s i)) ∧
      0 ≤ perBit c.data.length (fun i => f (share s i) (share t i)) ∧ perBit c.data.length (fun i => f (share s i) (share t i)) ≤ B ∧
      (perBit c.data.length (fun i => f (share s i) (share t i)) = 0 ↔ ∀ i, i < c.data.length → share s i = share t i) := by
    intro f B hf
    unfold perBit
    rw [← hL]
    refine ⟨?_, ?_, ?_, ?_⟩
    · congr 1
      apply Finset.sum_congr rfl
      intro i hi
      exact (hf i (Finset.mem_range.1 hi)).1
    · apply div_nonneg _ hposR.le
      exact Finset.sum_nonneg fun i hi => (hf i (Finset.mem_range.1 hi)).2.1
    · rw [div_le_iff₀ hposR]
      calc _ ≤ ∑ _i ∈ Finset.range c.data.length, B := Finset.sum_le_sum fun i hi => (hf i (Finset.mem_range.1 hi)).2.2.1
        _ = B * c.data.length := by simp [mul_comm]
    · rw [div_eq_zero_iff, or_iff_left hposR.ne', Finset.sum_eq_zero_iff_of_nonneg fun i hi => (hf i (Finset.mem_range.1 hi)).2.1]
      constructor
      · intro h i hi; exact (hf i hi).2.2.2.1 (h i (Finset.mem_range.2 hi))
      · intro h i hi; exact (hf i (Finset.mem_range.1 hi)).2.2.2.2 (h i (Finset.mem_range.1 hi))
  have hsh : ∀ i, i < c.data.length → 0 ≤ share s i ∧ share s i ≤ 1 ∧ 0 ≤ share t i ∧ share t i ≤ 1 := by
    intro i hi
    obtain ⟨r, _, _, h3, h4⟩ := built_row hc hi
    obtain ⟨r', _, _, g3, g4⟩ := built_row hd (hL ▸ hi)
    exact ⟨h3, h4, g3, g4⟩
  cases m with
  | hellinger =>
    obtain ⟨h1, h2, h3, h4⟩ := main coinHellinger 1 fun i hi => coinHellinger_props (hsh i hi).1 (hsh i hi).2.1 (hsh i hi).2.2.1 (hsh i hi).2.2.2
    refine ⟨_, c100_hellinger w c d s t hc hd hL, ?_, mul_nonneg hw.1.le h2, mul_le_mul_of_nonneg_left h3 hw.1.le, ?_⟩
    · rw [c100_hellinger w d c t s hd hc hL.symm, ← hw.2, ← h1]
    · rw [mul_eq_zero, or_iff_right hw.1.ne']; exact h4
  | klDiv =>
    obtain ⟨h1, h2, h3, h4⟩ := main coinDivergence 10 fun i _ => coinDivergence_props _ _
    refine ⟨_, c100_kl w c d s t hc hd hL, ?_, mul_nonneg hw.1.le h2, mul_le_mul_of_nonneg_left h3 hw.1.le, ?_⟩
    · rw [c100_kl w d c t s hd hc hL.symm, ← hw.2, ← h1]
    · rw [mul_eq_zero, or_iff_right hw.1.ne']; exact h4

theorem share_single (b : List Bool) {i : Nat} (hi : i < b.length) : share [b] i = if b[i] then 1 else 0 := by
  unfold share onesAt
  rw [List.countP_cons, List.getElem?_eq_getElem hi]
  cases b[i] <;> simp

theorem differing_sum : ∀ (b b' : List Bool), b.length = b'.length →
    (differing b b' : ℝ) = ∑ i ∈ Finset.range b.length, if b[i]? = b'[i]? then (0 : ℝ) else 1
  | [], [], _ => by simp [differing]
  | x :: b, y :: b', h => by
    have ih := differing_sum b b' (by simpa using h)
    rw [List.length_cons, Finset.sum_range_succ']
    unfold differing at ih ⊢
    rw [List.zip_cons_cons, List.countP_cons]
    push_cast
    rw [ih]
    cases x <;> cases y <;> simp

/-- C100: clusters of one sample each, which is what all clusters are when the merging starts, are at a distance
proportional to the number of bits in which the samples differ, whatever the weights. -/
theorem c100_single (m : MergeDist) (w : Weight) (c d : Cluster) (b b' : List Bool) (hc : Built Mixed c [b])
    (hd : Built Mixed d [b']) (hL : b.length = b'.length) :
    MergeDist.of m w c d = .ok (opposite m * ((differing b b' : ℝ) / b.length)) := by
  have hcl : c.data.length = b.length := ((c37_counts c _ hc).2.2.1 b (by simp)).symm
  have hdl : d.data.length = b'.length := ((c37_counts d _ hd).2.2.1 b' (by simp)).symm
  have hw : sizeWeight w [b] [b'] = 1 := by cases w <;> simp [sizeWeight]
  have key : ∀ (f : ℝ → ℝ → ℝ) (B : ℝ), f 0 0 = 0 → f 1 1 = 0 → f 0 1 = B → f 1 0 = B →
      perBit c.data.length (fun i => f (share [b] i) (share [b'] i)) = B * ((differing b b' : ℝ) / b.length) := by
    intro f B h00 h11 h01 h10
    unfold perBit
    rw [hcl, differing_sum b b' hL, ← mul_div_assoc, Finset.mul_sum]
    congr 1
    apply Finset.sum_congr rfl
    intro i hi
    have hi := Finset.mem_range.1 hi
    simp only []
    rw [share_single b hi, share_single b' (hL ▸ hi), List.getElem?_eq_getElem hi, List.getElem?_eq_getElem (hL ▸ hi)]
    cases b[i] <;> cases b'[i]'(hL ▸ hi) <;> simp [h00, h11, h01, h10]
  cases m with
  | hellinger =>
    rw [c100_hellinger w c d _ _ hc hd (by omega), hw, one_mul, key coinHellinger 1] <;> simp [coinHellinger, opposite]
  | klDiv =>
    rw [c100_kl w c d _ _ hc hd (by omega), hw, one_mul, key coinDivergence 10] <;> simp [coinDivergence, opposite]

/-- C100: hence with both distances and all weights the first two buffers put together at the end of the training are the first
pair that differs in the fewest bits. -/
theorem c100_first_merge {μ : Type} (md : MergeDist) (w : Weight) (m : Metrics μ ℝ) (hm : m.mdist = MergeDist.of md w)
    (hless : ∀ a b, m.less a b = true ↔ a < b) (cs : List Cluster) (bufs : List (List Bool)) (L : Nat)
    (hb : ∀ b ∈ bufs, b.length = L) (hcs : List.Forall₂ (fun c b => Built Mixed c [b]) cs bufs) (h2 : 2 ≤ cs.length)
    (pr : Nat × Nat) (cs' : List Cluster) (h : mergeStep m none cs = .ok (pr, cs')) :
    ∃ b₁ b₂, pr.1 < pr.2 ∧ bufs[pr.1]? = some b₁ ∧ bufs[pr.2]? = some b₂ ∧
      (∃ e, Built Mixed e [b₁, b₂] ∧ cs' = (cs.eraseIdx pr.2).set pr.1 e) ∧
      ∀ (i j : Nat) (x y : List Bool), i < j → bufs[i]? = some x → bufs[j]? = some y →
        differing b₁ b₂ ≤ differing x y ∧ (i < pr.1 ∨ (i = pr.1 ∧ j < pr.2) → differing b₁ b₂ < differing x y) := by
  have hlen : cs.length = bufs.length := hcs.length_eq
  have hget : ∀ (i : Nat) (hi : i < cs.length), Built Mixed cs[i] [bufs[i]'(hlen ▸ hi)] := by
    intro i hi
    exact List.forall₂_iff_get.1 hcs |>.2 i hi (hlen ▸ hi)
  have hval : ∀ c ∈ cs, ∀ d ∈ cs, ∃ x, MergeDist.of md w c d = .ok x := by
    intro c hc d hd
    obtain ⟨i, hi, rfl⟩ := List.getElem_of_mem hc
    obtain ⟨j, hj, rfl⟩ := List.getElem_of_mem hd
    exact ⟨_, c100_single md w _ _ _ _ (hget i hi) (hget j hj) (by
      rw [hb _ (List.getElem_mem _), hb _ (List.getElem_mem _)])⟩
  let f : Cluster → Cluster → ℝ := fun c d => match MergeDist.of md w c d with
    | .ok x => x
    | .error _ => 0
  have hf : ∀ c ∈ cs, ∀ d ∈ cs, m.mdist c d = .ok (f c d) := by
    intro c hc d hd
    obtain ⟨x, hx⟩ := hval c hc d hd
    rw [hm]
    simp only [f, hx]
  obtain ⟨h3, h4, h5, e, h6, h7⟩ := c70_merge_closest m hless f none cs hf h2 pr cs' h
  let K : ℝ := opposite md
  have hfv : ∀ (i j : Nat) (hi : i < cs.length) (hj : j < cs.length),
      f cs[i] cs[j] = K * ((differing (bufs[i]'(hlen ▸ hi)) (bufs[j]'(hlen ▸ hj)) : ℝ) / L) := by
    intro i j hi hj
    have := c100_single md w _ _ _ _ (hget i hi) (hget j hj) (by rw [hb _ (List.getElem_mem _), hb _ (List.getElem_mem _)])
    rw [hb _ (List.getElem_mem _)] at this
    simp only [f, this, K]
  have hLpos : (0 : ℝ) < L := by
    obtain ⟨b, h1, h2⟩ := built_nonempty (hget 0 (by omega))
    have hbe : b = bufs[0] := by simpa using h1
    have := hb _ (List.getElem_mem (l := bufs) (by omega : 0 < bufs.length))
    rw [← hbe] at this
    have h3 := List.length_pos_iff.2 h2
    rw [this] at h3
    exact_mod_cast h3
  have hK : 0 < K / L := by
    have : 0 < K := by simp only [K]; cases md <;> norm_num [opposite]
    positivity
  have hcmp : ∀ a b : Nat, (K * ((a : ℝ) / L) ≤ K * ((b : ℝ) / L) → a ≤ b) ∧ (K * ((a : ℝ) / L) < K * ((b : ℝ) / L) → a < b) := by
    intro a b
    have e : ∀ x : Nat, K * ((x : ℝ) / L) = K / L * x := fun x => by ring
    rw [e, e]
    constructor
    · intro h; exact_mod_cast le_of_mul_le_mul_left h hK
    · intro h; exact_mod_cast lt_of_mul_lt_mul_left h hK.le
  refine ⟨bufs[pr.1]'(by omega), bufs[pr.2]'(by omega), h3, List.getElem?_eq_getElem _, List.getElem?_eq_getElem _,
    ⟨e, .merge _ _ _ _ _ (hget pr.1 (by omega)) (hget pr.2 h4) h6, h7⟩, ?_⟩
  intro i j x y hij hx hy
  have hj : j < bufs.length := by
    by_contra hc
    rw [List.getElem?_eq_none (by omega)] at hy
    exact absurd hy (by simp)
  rw [List.getElem?_eq_getElem (by omega)] at hx hy
  injection hx with hx
  injection hy with hy
  subst hx hy
  have := h5 i j hij (by omega)
  rw [hfv _ _ (by omega) h4, hfv _ _ (by omega) (by omega)] at this
  exact ⟨(hcmp _ _).1 this.1, fun h => (hcmp _ _).2 (this.2 h)⟩

theorem alphabet_single {al : List Int} (v : Int) (h : al.Pairwise (· < ·)) (hm : ∀ x, x ∈ al ↔ x = v) : al = [v] := by
  apply List.Perm.eq_of_pairwise (le := (· < ·)) _ h (by simp)
  · rw [List.perm_ext_iff_of_nodup (h.imp fun h => ne_of_lt h) (by simp)]
    intro x; rw [hm]; simp
  · intro a b _ _ h1 h2; omega

theorem prob_constant (n : Nat) (hn : 0 < n) (x : Bool) :
    prob (columnOf (List.replicate n x)) = .ok (List.replicate n [1]) := by
  have hrows : ∀ r ∈ (List.replicate n x).map (fun x => [if x then (1 : Int) else 0]), r.length = 1 := by
    intro r hr
    obtain ⟨x, _, rfl⟩ := List.mem_map.1 hr
    rfl
  obtain ⟨al, pr, _, h2, h3, h4, h5, _⟩ := c47_prob2 1 (by norm_num) _ hrows
  have hal : al = [if x then 1 else 0] := by
    apply alphabet_single _ h3
    intro v
    rw [h4]
    constructor
    · rintro ⟨r, hr, hv⟩
      obtain ⟨y, hy, rfl⟩ := List.mem_map.1 hr
      rw [List.eq_of_mem_replicate hy] at hv
      simpa using hv
    · rintro rfl
      exact ⟨_, List.mem_map.2 ⟨x, by simp; omega, rfl⟩, by simp⟩
  unfold columnOf
  rw [h2, h5, hal]
  cases x <;> simp [freq]

/-- C100 fails for constant buffers: an all-zeros and an all-ones buffer, of whatever length, are at distance 0. -/
theorem c100_constant_false (n : Nat) (hn : 0 < n) : ∃ c d : Cluster,
    Built (fun _ => True) c [List.replicate n true] ∧ Built (fun _ => True) d [List.replicate n false] ∧
      ∀ m w, MergeDist.of m w c d = .ok 0 := by
  refine ⟨_, _, .start _ _ 0 trivial (prob_constant n hn true), .start _ _ 1 trivial (prob_constant n hn false), ?_⟩
  have hd : ∀ u, (Cluster.new (List.replicate n [(1 : ℚ)]) u).dist = List.replicate n [1] := by
    intro u
    have : truncQ 1 = 1 := by decide +kernel
    simp [Cluster.dist, Cluster.new, this]
  have hz : (List.replicate n [(1 : ℚ)]).zip (List.replicate n [(1 : ℚ)]) = List.replicate n ([1], [1]) := by
    rw [List.zip_replicate']
  intro m w
  cases m with
  | hellinger =>
    change hellingerMerge _ _ _ = _
    unfold hellingerMerge
    rw [if_neg (by simp [Cluster.new]), hd, hd, hz, mapM_map_ok _ _ (fun _ => (0 : ℝ))]
    · simp [bind, Except.bind, meanR]
    · intro pq hpq
      rw [List.eq_of_mem_replicate hpq]
      simp [bcast, bind, Except.bind, hellingerVec]
  | klDiv =>
    change klDist _ _ _ = _
    unfold klDist
    rw [if_neg (by simp [Cluster.new]), hd, hd, hz, mapM_map_ok _ _ (fun _ => (0 : ℝ))]
    · simp [bind, Except.bind, meanR]
    · intro pq hpq
      rw [List.eq_of_mem_replicate hpq]
      simp [scipyKL, bcast, bind, Except.bind, relEntr, clipE]

/-- Two clusters: half of the samples of the first have a one in the first bit, all of the second. -/
example : ∃ c d, Built Mixed c [[true, false], [false, true]] ∧ Built Mixed d [[true, false]] ∧ c.data.length = d.data.length ∧
    MergeDist.of .klDiv .linear c d = .ok (3 / 2 * 10) := by
  have hc : Built Mixed (⟨[[1, 1], [1, 1]], 0, 2⟩ : Cluster) [[true, false], [false, true]] :=
    .add _ _ [[true, false]] [false, true] (Built.start (P := Mixed) [true, false] [[0, 1], [1, 0]] 0 ⟨by simp, by simp⟩ (by decide +kernel))
      (by decide +kernel)
  have hd : Built Mixed (Cluster.new [[0, 1], [1, 0]] 0) [[true, false]] :=
    Built.start (P := Mixed) [true, false] [[0, 1], [1, 0]] 0 ⟨by simp, by simp⟩ (by decide +kernel)
  refine ⟨_, _, hc, hd, rfl, ?_⟩
  rw [c100_kl _ _ _ _ _ hc hd rfl]
  have h : ∀ i, i < 2 → coinDivergence (share [[true, false], [false, true]] i) (share [[true, false]] i) = 10 := by
    intro i hi
    rcases (by omega : i = 0 ∨ i = 1) with rfl | rfl <;>
      simp [coinDivergence, share, onesAt]
  rw [perBit]
  simp only [List.length_cons, List.length_nil]
  rw [Finset.sum_congr rfl fun i hi => h i (by simpa using hi)]
  simp [sizeWeight]
  norm_num

/-- Three buffers: the first and the last are put together, the second and the last, which are as near, come later. -/
example (md : MergeDist) (w : Weight) (m : Metrics Nat ℝ) (hm : m.mdist = MergeDist.of md w)
    (hless : ∀ a b, m.less a b = true ↔ a < b) : ∃ cs cs', List.Forall₂ (fun c b => Built Mixed c [b]) cs
      [[true, true, false], [true, false, true], [true, false, false]] ∧ mergeStep m none cs = .ok ((0, 2), cs') := by
  have hb : ∀ b : List Bool, Mixed b → Built Mixed (Cluster.new (b.map fun x => if x then [0, 1] else [1, 0]) 0) [b] :=
    fun b h => .start _ _ _ h (prob_mixed h)
  have h1 := hb [true, true, false] ⟨by simp, by simp⟩
  have h2 := hb [true, false, true] ⟨by simp, by simp⟩
  have h3 := hb [true, false, false] ⟨by simp, by simp⟩
  have hL : ∀ c ∈ [Cluster.new ([true, true, false].map fun x => if x then [0, 1] else [1, 0]) 0,
      Cluster.new ([true, false, true].map fun x => if x then [0, 1] else [1, 0]) 0,
      Cluster.new ([true, false, false].map fun x => if x then [0, 1] else [1, 0]) 0],
      c.data.length = 3 ∧ ∃ b, b.length = 3 ∧ Built Mixed c [b] := by
    intro c hc
    simp only [List.mem_cons, List.not_mem_nil, or_false] at hc
    rcases hc with rfl | rfl | rfl
    · exact ⟨by simp [Cluster.new], _, rfl, h1⟩
    · exact ⟨by simp [Cluster.new], _, rfl, h2⟩
    · exact ⟨by simp [Cluster.new], _, rfl, h3⟩
  obtain ⟨pr, cs', h⟩ := mergeStep_returns m none _ [[[true, true, false]], [[true, false, true]], [[true, false, false]]]
    (.cons h1 (.cons h2 (.cons h3 .nil))) 3 (fun c hc => (hL c hc).1) (by simp) (by
      intro c hc d hd
      obtain ⟨_, b, e1, g1⟩ := hL c hc
      obtain ⟨_, b', e2, g2⟩ := hL d hd
      rw [hm]
      exact ⟨_, c100_single md w c d b b' g1 g2 (by omega)⟩)
  refine ⟨_, cs', .cons h1 (.cons h2 (.cons h3 .nil)), ?_⟩
  obtain ⟨b1, b2, k1, k2, k3, _, k4⟩ := c100_first_merge md w m hm hless _ [[true, true, false], [true, false, true], [true, false, false]]
    3 (by simp) (.cons h1 (.cons h2 (.cons h3 .nil))) (by simp) pr cs' h
  obtain ⟨i, j⟩ := pr
  have hj : j < 3 := by
    by_contra hc
    rw [List.getElem?_eq_none (by simpa using hc)] at k3
    exact absurd k3 (by simp)
  have : (i, j) = (0, 2) := by
    rcases (by simp only at k1; omega : (i = 0 ∧ j = 1) ∨ (i = 0 ∧ j = 2) ∨ (i = 1 ∧ j = 2)) with ⟨rfl, rfl⟩ | ⟨rfl, rfl⟩ | ⟨rfl, rfl⟩
    · have := (k4 0 2 _ _ (by omega) rfl rfl).1
      injection k2 with k2
      injection k3 with k3
      subst k2 k3
      exact absurd this (by decide)
    · rfl
    · have := (k4 0 2 _ _ (by omega) rfl rfl).2 (by simp)
      injection k2 with k2
      injection k3 with k3
      subst k2 k3
      exact absurd this (by decide)
  rw [← this]
  exact h

end NR

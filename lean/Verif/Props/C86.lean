import Verif.Spec.Likelihood
import Verif.Props.C45_C46
import Verif.Props.C53_C56
import Verif.Props.C65
import Verif.Props.C68
/-
C86: the probabilities of the bit models are maximum-likelihood estimates.
-/
namespace NR
open Spec

variable {σ Λ : Type}

/-- `q ^ k * (1 - q) ^ m` grows up to `k / (k + m)`. -/
theorem trials_le (k m : Nat) (q r : ℝ) (h0 : 0 ≤ q) (hqr : q ≤ r) (h1 : r ≤ 1) (hr : r * (k + m) ≤ k) :
    q ^ k * (1 - q) ^ m ≤ r ^ k * (1 - r) ^ m ∧ (q < r → r * (k + m) < k → q ^ k * (1 - q) ^ m < r ^ k * (1 - r) ^ m) := by
  have hk0 : (0 : ℝ) ≤ k := Nat.cast_nonneg k
  have hm0 : (0 : ℝ) ≤ m := Nat.cast_nonneg m
  rcases hqr.eq_or_lt with rfl | hlt
  · exact ⟨le_refl _, fun h => absurd h (lt_irrefl _)⟩
  have hr0 : 0 < r := lt_of_le_of_lt h0 hlt
  rcases h1.eq_or_lt with rfl | hr1
  · have hm : m = 0 := by
      have : (m : ℝ) ≤ 0 := by linarith
      exact_mod_cast le_antisymm this hm0
    subst hm
    simp only [pow_zero, mul_one]
    refine ⟨pow_le_pow_left₀ h0 hqr k, fun _ h => ?_⟩
    simp at h
  have key : ∀ a : ℝ, 0 ≤ a → ∀ n : Nat, a ^ n ≤ Real.exp (n * (a - 1)) := by
    intro a ha n
    rw [Real.exp_nat_mul]
    exact pow_le_pow_left₀ ha (by have := Real.add_one_le_exp (a - 1); linarith) n
  have hpos : 0 < r ^ k * (1 - r) ^ m := mul_pos (pow_pos hr0 _) (pow_pos (by linarith) _)
  have ha : 0 ≤ q / r := div_nonneg h0 hr0.le
  have hb : 0 ≤ (1 - q) / (1 - r) := div_nonneg (by linarith) (by linarith)
  have hfac : q ^ k * (1 - q) ^ m = (q / r) ^ k * ((1 - q) / (1 - r)) ^ m * (r ^ k * (1 - r) ^ m) := by
    rw [div_pow, div_pow]
    have h1 : r ^ k ≠ 0 := (pow_pos hr0 _).ne'
    have h2 : (1 - r) ^ m ≠ 0 := (pow_pos (by linarith) _).ne'
    field_simp
  have hle : (q / r) ^ k * ((1 - q) / (1 - r)) ^ m ≤ Real.exp (k * (q / r - 1) + m * ((1 - q) / (1 - r) - 1)) := by
    rw [Real.exp_add]
    exact mul_le_mul (key _ ha k) (key _ hb m) (pow_nonneg hb _) (Real.exp_pos _).le
  have hexp : k * (q / r - 1) + m * ((1 - q) / (1 - r) - 1) = (r - q) * (r * (k + m) - k) / (r * (1 - r)) := by
    have h1 : r ≠ 0 := hr0.ne'
    have h2 : 1 - r ≠ 0 := by linarith
    field_simp
    ring
  have hden : 0 < r * (1 - r) := mul_pos hr0 (by linarith)
  rw [hfac]
  constructor
  · calc _ ≤ 1 * (r ^ k * (1 - r) ^ m) := by
          refine mul_le_mul_of_nonneg_right (hle.trans ?_) hpos.le
          rw [hexp]
          exact Real.exp_le_one_iff.2 (div_nonpos_of_nonpos_of_nonneg (mul_nonpos_of_nonneg_of_nonpos (by linarith) (by linarith)) hden.le)
      _ = _ := one_mul _
  · intro _ hs
    calc _ < 1 * (r ^ k * (1 - r) ^ m) := by
          refine mul_lt_mul_of_pos_right (lt_of_le_of_lt hle ?_) hpos
          rw [hexp]
          exact Real.exp_lt_one_iff.2 (div_neg_of_neg_of_pos (mul_neg_of_pos_of_neg (by linarith) (by linarith)) hden)
      _ = _ := one_mul _

/-- Strictly, including the top. -/
theorem trials_lt (k m : Nat) (hN : 0 < k + m) (q r : ℝ) (h0 : 0 ≤ q) (hqr : q < r) (h1 : r ≤ 1) (hr : r * (k + m) ≤ k) :
    q ^ k * (1 - q) ^ m < r ^ k * (1 - r) ^ m := by
  have hN' : (0 : ℝ) < (k : ℝ) + m := by exact_mod_cast hN
  have hmid : (q + r) / 2 * (k + m) < k := by
    have : (q + r) / 2 < r := by linarith
    nlinarith
  exact lt_of_lt_of_le ((trials_le k m q ((q + r) / 2) h0 (by linarith) (by linarith) hmid.le).2 (by linarith) hmid)
    (trials_le k m ((q + r) / 2) r (by linarith) (by linarith) h1 hr).1

theorem trials_gt (k m : Nat) (hN : 0 < k + m) (q r : ℝ) (h0 : 0 ≤ r) (hqr : r < q) (h1 : q ≤ 1) (hr : (k : ℝ) ≤ r * (k + m)) :
    q ^ k * (1 - q) ^ m < r ^ k * (1 - r) ^ m := by
  have := trials_lt m k (by omega) (1 - q) (1 - r) (by linarith) (by linarith) (by linarith) (by linarith)
  simp only [sub_sub_cancel] at this
  rw [mul_comm (q ^ k), mul_comm (r ^ k)]
  exact this

theorem likelihood_eq (f : ℝ) (words : List (List Bool)) (j : Nat) (p : ℝ) :
    likelihood f words j p = throughBsc f p ^ (words.countP fun b => b.getD j false) *
      (1 - throughBsc f p) ^ (words.length - words.countP fun b => b.getD j false) := by
  unfold likelihood
  induction words with
  | nil => simp
  | cons x xs ih =>
    have hle : xs.countP (fun b => b.getD j false) ≤ xs.length := List.countP_le_length
    rw [List.map_cons, List.prod_cons, ih, List.countP_cons, List.length_cons]
    cases hx : x.getD j false with
    | true =>
      simp only [if_true]
      rw [Nat.add_sub_add_right, pow_succ]
      ring
    | false =>
      simp only [Bool.false_eq_true, if_false, Nat.add_zero]
      rw [Nat.succ_sub hle, pow_succ]
      ring

theorem throughBsc_mem (f p : ℝ) (hf : 0 ≤ f) (hf1 : f ≤ 1) (h0 : 0 ≤ p) (h1 : p ≤ 1) : 0 ≤ throughBsc f p ∧ throughBsc f p ≤ 1 := by
  unfold throughBsc
  constructor
  · have := mul_nonneg (sub_nonneg.2 hf1) h0
    have := mul_nonneg hf (sub_nonneg.2 h1)
    linarith
  · nlinarith [mul_nonneg (sub_nonneg.2 hf1) (sub_nonneg.2 h1), mul_nonneg hf h0]

/-- C86, the estimate: for any flip probability other than one half, the share of ones seen, corrected for the flips and
clipped, is the unique probability that explains the bits best. -/
theorem c86_estimate (f : ℝ) (hf : 0 ≤ f) (hf1 : f ≤ 1) (hhalf : f ≠ 1 / 2) (words : List (List Bool)) (hw : words ≠ []) (j : Nat) :
    MostLikely f words j (min 1 (max 0 ((oneShare words j - f) / (1 - 2 * f)))) := by
  have hs : (1 - 2 * f) ≠ 0 := fun h => hhalf (by linarith)
  generalize ht : (oneShare words j - f) / (1 - 2 * f) = t
  have hv : oneShare words j = f + (1 - 2 * f) * t := by
    rw [← ht, mul_div_cancel₀ _ hs]; ring
  have hle : words.countP (fun b => b.getD j false) ≤ words.length := List.countP_le_length
  have hlen : 0 < words.length := List.length_pos_iff.2 hw
  unfold oneShare at hv
  have hk := likelihood_eq f words j
  generalize words.countP (fun b => b.getD j false) = k at *
  have hN : (k : ℝ) + ((words.length - k : Nat) : ℝ) = words.length := by
    rw [← Nat.cast_add]; congr 1; omega
  have hlr : (0 : ℝ) < words.length := by exact_mod_cast hlen
  rw [div_eq_iff hlr.ne'] at hv
  have hp0 : 0 ≤ min 1 (max 0 t) := le_min zero_le_one (le_max_left _ _)
  have hp1 : min 1 (max 0 t) ≤ 1 := min_le_left _ _
  refine ⟨hp0, hp1, fun q hq0 hq1 hne => ?_⟩
  have hqa := throughBsc_mem f q hf hf1 hq0 hq1
  have hpa := throughBsc_mem f _ hf hf1 hp0 hp1
  have hlo : q < min 1 (max 0 t) → min 1 (max 0 t) ≤ t := by
    intro h
    have h1 := (lt_min_iff.1 h).2
    rcases lt_max_iff.1 h1 with h2 | h2
    · linarith
    · rw [max_eq_right (by linarith)]; exact min_le_right _ _
  have hhi : min 1 (max 0 t) < q → t ≤ min 1 (max 0 t) := by
    intro h
    have : ¬ (1 : ℝ) ≤ max 0 t := fun h' => by rw [min_eq_left h'] at h; linarith
    rw [min_eq_right (not_le.1 this).le]
    exact le_max_right _ _
  rw [hk, hk]
  generalize min 1 (max 0 t) = p at *
  have e : ∀ x, throughBsc f x = f + (1 - 2 * f) * x := fun x => by unfold throughBsc; ring
  rw [e] at *
  rw [e p] at *
  have up : f + (1 - 2 * f) * q < f + (1 - 2 * f) * p → f + (1 - 2 * f) * p ≤ f + (1 - 2 * f) * t →
      (f + (1 - 2 * f) * q) ^ k * (1 - (f + (1 - 2 * f) * q)) ^ (words.length - k) <
      (f + (1 - 2 * f) * p) ^ k * (1 - (f + (1 - 2 * f) * p)) ^ (words.length - k) := by
    intro a b
    exact trials_lt k _ (by omega) _ _ hqa.1 a hpa.2 (by rw [hN, hv]; exact mul_le_mul_of_nonneg_right b hlr.le)
  have down : f + (1 - 2 * f) * p < f + (1 - 2 * f) * q → f + (1 - 2 * f) * t ≤ f + (1 - 2 * f) * p →
      (f + (1 - 2 * f) * q) ^ k * (1 - (f + (1 - 2 * f) * q)) ^ (words.length - k) <
      (f + (1 - 2 * f) * p) ^ k * (1 - (f + (1 - 2 * f) * p)) ^ (words.length - k) := by
    intro a b
    exact trials_gt k _ (by omega) _ _ hpa.1 a hqa.2 (by rw [hN, hv]; exact mul_le_mul_of_nonneg_right b hlr.le)
  rcases lt_or_gt_of_ne hs with hs | hs
  · rcases lt_or_gt_of_ne hne with h | h
    · exact down (by nlinarith) (by nlinarith [hlo h])
    · exact up (by nlinarith) (by nlinarith [hhi h])
  · rcases lt_or_gt_of_ne hne with h | h
    · exact up (by nlinarith) (by nlinarith [hlo h])
    · exact down (by nlinarith) (by nlinarith [hhi h])

/-- C86. With flip probability one half the bits say nothing: all probabilities explain them equally well. -/
theorem c86_half (words : List (List Bool)) (j : Nat) (p q : ℝ) : likelihood (1 / 2) words j p = likelihood (1 / 2) words j q := by
  have h : ∀ x, throughBsc (1 / 2) x = 1 / 2 := fun x => by unfold throughBsc; ring
  simp only [likelihood, h]

/-- C86, EMLE: after any buffers the model's probability at each position is the one that explains the window of buffers best. -/
theorem c86_emle (f : ℝ) (hf : 0 ≤ f) (hf1 : f ≤ 1) (hhalf : f ≠ 1 / 2) (threshold center slope : ℝ) (hard soft : Bool) (w n : Nat)
    (hn : 0 < n) (h : List (List Bool)) (hne : h ≠ []) (hl : ∀ o ∈ h, o.length = n) :
    ∃ s, (Emle.new f threshold w center slope hard soft).updates (h.map bitsR) = .ok s ∧ s.p1.length = n ∧
      ∀ j p, s.p1[j]? = some p → MostLikely f (windowed (some w) h) j p := by
  obtain ⟨s, h1, _, _, h4⟩ := c45_model f threshold center slope hard soft w n hn h hl
  obtain ⟨h5, _⟩ := h4 hne
  refine ⟨s, h1, by rw [h5]; simp, fun j p hj => ?_⟩
  have hwn : windowed (some w) h ≠ [] := by
    cases w with
    | zero => simpa [windowed] using hne
    | succ w =>
      intro h0
      have := congrArg List.length h0
      simp only [windowed, lastN, List.length_drop, List.length_nil] at this
      have := List.length_pos_iff.2 hne
      omega
  have hj' : j < n := by
    have := (List.getElem?_eq_some_iff.1 hj).1
    rw [h5] at this
    simpa using this
  rw [h5, List.getElem?_map, List.getElem?_range hj', Option.map_some, Option.some.injEq] at hj
  rw [← hj, min_comm, max_comm]
  exact c86_estimate f hf hf1 hhalf _ hwn j

/-- C86, the classifying entropy decoder: after a call that returned, the distribution of the word's cluster holds, at each
position, the probability that explains the window of the words learned for it best. -/
theorem c86_entropy {c : CedCfg} (hf : 0 ≤ c.bitFlip) (hf1 : c.bitFlip ≤ 1) (hhalf : c.bitFlip ≠ 1 / 2) (ht : c.train = true)
    (hm : 0 < c.modelLength) (hw : c.window ≠ some 0) (cls : Labeler σ) (ldpc : Ldpc Λ) (s : Ced σ Λ) (ch : List ℝ) (r : CedOut)
    (h : (s.decode c cls ldpc ch).result = .ok r) (h0 : 0 ≤ r.label) :
    ∃ data, (s.decode c cls ldpc ch).state.datas[r.label.toNat]? = some data ∧ r.dist.length = c.modelLength ∧
      ∀ j d, r.dist[j]? = some d → d.1 = 1 - d.2 ∧ MostLikely c.bitFlip data j d.2 := by
  obtain ⟨data, e1, e2, _, e4, _⟩ := c53_distribution ht hm hw cls ldpc s ch r h h0
  have hne : data ≠ [] := by
    obtain ⟨⟨x, hx, _⟩, _⟩ := e2
    exact List.ne_nil_of_mem hx
  refine ⟨data, e1, by rw [e4]; simp, fun j d hj => ?_⟩
  have hj' : j < c.modelLength := by
    have := (List.getElem?_eq_some_iff.1 hj).1
    rw [e4] at this
    simpa using this
  rw [e4, List.getElem?_map, List.getElem?_range hj', Option.map_some, Option.some.injEq] at hj
  rw [← hj]
  exact ⟨rfl, c86_estimate _ hf hf1 hhalf _ hne j⟩

/-- C86, the combined decoders. -/
theorem c86_combined {c : CombCfg} (hf : 0 ≤ c.bitFlip) (hf1 : c.bitFlip ≤ 1) (hhalf : c.bitFlip ≠ 1 / 2)
    (hm : 0 < c.modelLength) (hw : c.window ≠ some 0) (cls : Labeler σ) (ldpc : Ldpc Λ)
    (s : Comb σ Λ) (ch : List ℝ) (r : CombOut) (h : (s.decode c cls ldpc ch).result = .ok r) (h0 : 0 ≤ r.label) :
    ∃ data dist, (s.decode c cls ldpc ch).state.ent.datas[r.label.toNat]? = some data ∧
      (s.decode c cls ldpc ch).state.ent.dists[r.label.toNat]? = some dist ∧ dist.length = c.modelLength ∧
      ∀ j d, dist[j]? = some d → d.1 = 1 - d.2 ∧ MostLikely c.bitFlip data j d.2 := by
  obtain ⟨data, e1, e2, e4, _⟩ := c68_distribution hm hw cls ldpc s ch r h h0
  have hne : data ≠ [] := by
    obtain ⟨⟨x, hx, _⟩, _⟩ := e2
    exact List.ne_nil_of_mem hx
  refine ⟨data, _, e1, e4, by simp, fun j d hj => ?_⟩
  have hj' : j < c.modelLength := by
    have := (List.getElem?_eq_some_iff.1 hj).1
    simpa using this
  rw [List.getElem?_map, List.getElem?_range hj', Option.map_some, Option.some.injEq] at hj
  rw [← hj]
  exact ⟨rfl, c86_estimate _ hf hf1 hhalf _ hne j⟩

/-- C86, the bit-by-bit decoder in Bayes mode: as long as the counters have not been renormalised, the row of each model
bit is the probability that explains the learned words best. -/
theorem c86_bayes {c : WbdCfg} (hf : 0 ≤ c.bitFlip) (hf1 : c.bitFlip ≤ 1) (hhalf : c.bitFlip ≠ 1 / 2)
    (hb : c.bayes = true) (hm : 0 < c.modelLength) (hx : c.idx.length = c.modelLength)
    {w : Nat} (hw : c.window = some w)
    (ldpc : Ldpc Λ) {l : Λ} {s0 s : Wbd Λ} (h0 : Wbd.new c l = .ok s0) {words : List (List ℝ)} {steps : List (WbdStep Λ)}
    (hr : Wbd.run c ldpc s0 words = (s, steps)) (h : Half) (ws : List (List Bool))
    (hh : (h = s.a ∧ ws = goodWords c.idx (wbdEvents words steps)) ∨ (h = s.b ∧ ws = allWords c.idx (wbdEvents words steps)))
    (hle : ws.length + 2 ≤ 2 * w) (hne : ws ≠ []) :
    h.dist.length = c.modelLength ∧
      ∀ j row, h.dist[j]? = some row → ∃ p, row = [1 - p, p] ∧ MostLikely c.bitFlip ws j p := by
  obtain ⟨_, e⟩ := c65_exact hb hm hx hw ldpc h0 hr h ws hh hle
  have e := e hne
  refine ⟨by rw [e]; simp, fun j row hj => ?_⟩
  have hj' : j < c.modelLength := by
    have := (List.getElem?_eq_some_iff.1 hj).1
    rw [e] at this
    simpa using this
  rw [e, List.getElem?_map, List.getElem?_range hj', Option.map_some, Option.some.injEq] at hj
  exact ⟨_, hj.symm, c86_estimate _ hf hf1 hhalf _ hne j⟩

-- Two ones and a zero through a channel that flips one bit in six: the best explanation is 3/4, and it is strictly better than 2/3.
example : MostLikely (1 / 6) [[true], [true], [false]] 0 (3 / 4) ∧
    likelihood (1 / 6) [[true], [true], [false]] 0 (2 / 3) < likelihood (1 / 6) [[true], [true], [false]] 0 (3 / 4) := by
  have h := c86_estimate (1 / 6) (by norm_num) (by norm_num) (by norm_num) [[true], [true], [false]] (by simp) 0
  have e : min 1 (max 0 ((oneShare [[true], [true], [false]] 0 - 1 / 6) / (1 - 2 * (1 / 6)))) = (3 / 4 : ℝ) := by
    have : oneShare [[true], [true], [false]] 0 = 2 / 3 := by simp [oneShare]
    rw [this]; norm_num
  rw [e] at h
  exact ⟨h, h.2.2 _ (by norm_num) (by norm_num) (by norm_num)⟩

-- EMLE after three buffers with a window of two.
example : ∃ s, (Emle.new (1 / 6) 0 2 0 0 true false).updates ([[true], [true], [false]].map bitsR) = .ok s ∧ s.p1.length = 1 ∧
    ∀ j p, s.p1[j]? = some p → MostLikely (1 / 6) [[true], [false]] j p :=
  c86_emle (1 / 6) (by norm_num) (by norm_num) (by norm_num) 0 0 0 true false 2 1 (by norm_num) [[true], [true], [false]]
    (by simp) (by simp)

-- A learning call of the entropy decoder.
example (s : Ced Unit Unit) (hs : WellFormed cedDemo s) (hr : s.running = -1) (hd : s.datas[0]? = some []) :
    ∃ r, (s.decode cedDemo clsDemo ldpcDemo [1, 2, 3, -4]).result = .ok r ∧
      ∃ data, (s.decode cedDemo clsDemo ldpcDemo [1, 2, 3, -4]).state.datas[r.label.toNat]? = some data ∧
        ∀ j d, r.dist[j]? = some d → d.1 = 1 - d.2 ∧ MostLikely cedDemo.bitFlip data j d.2 := by
  obtain ⟨inp, bits, old, h0, h1, h2, h3, _⟩ := c53_returns (c := cedDemo) rfl (by decide) rfl (by simp [cedDemo]) rfl
    clsDemo ldpcDemo s hs [1, 2, 3, -4] (by simp [cedDemo]) 0 (by decide) (by simp [pickLabel, cedDemo, hr])
    (by simp [cedDemo, ldpcDemo])
  have hold : old = [] := by rw [hd] at h2; exact (Option.some.inj h2).symm
  have hb : bits = [true, false, true] := by rw [h0]; rfl
  obtain ⟨r, hres, hl⟩ := h3 (by
    rw [hold, hb]
    exact ⟨⟨[true, false, true], by simp [growData, cedDemo], 1, by decide, rfl⟩,
      ⟨[true, false, true], by simp [growData, cedDemo], 0, by decide, rfl⟩⟩)
  obtain ⟨data, e1, _, e3⟩ := c86_entropy (c := cedDemo) (by norm_num [cedDemo]) (by norm_num [cedDemo]) (by norm_num [cedDemo]) rfl
    (by decide) (by simp [cedDemo]) clsDemo ldpcDemo s _ r hres (by rw [hl]; decide)
  exact ⟨r, hres, data, e1, e3⟩

-- The first call of a unified decoder with three model bits.
example (O : StatOps Val ℝ) (bm : BufferModel ℝ) :
    ∃ r, (Comb.decode (combDemo O true 3 [0, 1, 2]) clsDemo ldpcDemo (Comb.new 1 bm () ()) [1, 2, 3, -4]).result = .ok r ∧
      (0 ≤ r.label → ∃ data dist,
        (Comb.decode (combDemo O true 3 [0, 1, 2]) clsDemo ldpcDemo (Comb.new 1 bm () ()) [1, 2, 3, -4]).state.ent.datas[r.label.toNat]? =
          some data ∧
        (Comb.decode (combDemo O true 3 [0, 1, 2]) clsDemo ldpcDemo (Comb.new 1 bm () ()) [1, 2, 3, -4]).state.ent.dists[r.label.toNat]? =
          some dist ∧ ∀ j d, dist[j]? = some d → d.1 = 1 - d.2 ∧ MostLikely 0 data j d.2) := by
  obtain ⟨r, hr⟩ := combDemo_returns O bm
  refine ⟨r, hr, fun h0 => ?_⟩
  obtain ⟨data, dist, e1, e2, _, e3⟩ := c86_combined (c := combDemo O true 3 [0, 1, 2]) (by simp [combDemo]) (by simp [combDemo])
    (by simp [combDemo]) (by simp [combDemo]) (by simp [combDemo]) clsDemo ldpcDemo _ _ r hr h0
  exact ⟨data, dist, e1, e2, e3⟩

-- The second model of a bit-by-bit decoder after one word.
example : ∃ s0 s steps, Wbd.new (oneBitCfg 5) () = .ok s0 ∧ Wbd.run (oneBitCfg 5) zeroLdpc s0 [[1]] = (s, steps) ∧
    ∀ j row, s.b.dist[j]? = some row → ∃ p, row = [1 - p, p] ∧ MostLikely 0 [[false]] j p := by
  obtain ⟨s0, s, steps, h1, h2, h3, _⟩ := oneBit_run
  exact ⟨s0, s, steps, h1, h2, (c86_bayes (c := oneBitCfg 5) (by simp [oneBitCfg]) (by simp [oneBitCfg]) (by simp [oneBitCfg]) rfl
    Nat.one_pos rfl (w := 5) rfl zeroLdpc h1 h2 s.b [[false]] (Or.inr ⟨rfl, h3.symm⟩) (by simp) (by simp)).2⟩

end NR

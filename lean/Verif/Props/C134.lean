import Verif.Spec.Posterior
import Verif.Props.C71
import Verif.Props.C64
/-
C134: how sure the weighted decoder takes its two models to be.
-/
namespace NR.C134
open NR NR.Spec

/-! ### The variance of a chance -/

theorem moment_split (a b : ℕ) : (a + b + 2 : ℝ) * (∫ x in (0 : ℝ)..1, x ^ (a + 1) * (1 - x) ^ b) =
    (a + 1) * ∫ x in (0 : ℝ)..1, x ^ a * (1 - x) ^ b := by
  have hc : ∀ a b : ℕ, IntervalIntegrable (fun x : ℝ => x ^ a * (1 - x) ^ b) MeasureTheory.volume 0 1 := fun a b =>
    (Continuous.intervalIntegrable (by fun_prop) _ _)
  have hd : ∀ x ∈ Set.uIcc (0 : ℝ) 1, HasDerivAt (fun x : ℝ => x ^ (a + 1) * (1 - x) ^ (b + 1))
      ((a + 1) * (x ^ a * (1 - x) ^ b) - (a + b + 2) * (x ^ (a + 1) * (1 - x) ^ b)) x := by
    intro x _
    have h1 : HasDerivAt (fun x : ℝ => x ^ (a + 1)) ((a + 1 : ℕ) * x ^ a) x := by simpa using hasDerivAt_pow (a + 1) x
    have h2 : HasDerivAt (fun x : ℝ => (1 - x) ^ (b + 1)) (((b + 1 : ℕ) * (1 - x) ^ b) * (-1)) x := by
      have := ((hasDerivAt_id x).const_sub 1).fun_pow (b + 1)
      simpa using this
    have := h1.mul h2
    refine this.congr_deriv ?_
    push_cast
    ring
  have hi := intervalIntegral.integral_eq_sub_of_hasDerivAt hd
    (((hc a b).const_mul (a + 1 : ℝ)).sub ((hc (a + 1) b).const_mul (a + b + 2 : ℝ)))
  rw [intervalIntegral.integral_sub ((hc a b).const_mul (a + 1 : ℝ)) ((hc (a + 1) b).const_mul (a + b + 2 : ℝ)),
    intervalIntegral.integral_const_mul, intervalIntegral.integral_const_mul] at hi
  simp at hi
  linarith

theorem moment_pos (a b : ℕ) : 0 < ∫ x in (0 : ℝ)..1, x ^ a * (1 - x) ^ b := by
  apply intervalIntegral.intervalIntegral_pos_of_pos_on (Continuous.intervalIntegrable (by fun_prop) _ _)
  · intro x hx
    have h1 := hx.1
    have h2 : 0 < 1 - x := by linarith [hx.2]
    positivity
  · norm_num

/-- **C134.** The variance of the chance of a one after `k` ones and `l` zeros, in closed form. -/
theorem c134_posterior (k l : ℕ) : posteriorVariance k l = ((k : ℝ) + 1) * (l + 1) / ((k + l + 2) ^ 2 * (k + l + 3)) := by
  have e : ∀ i, moment k l i = ∫ x in (0 : ℝ)..1, x ^ (k + i) * (1 - x) ^ l := by
    intro i
    unfold moment
    congr 1
    funext x
    rw [pow_add]; ring
  have h0 := moment_pos k l
  have h1 := moment_split k l
  have h2 := moment_split (k + 1) l
  unfold posteriorVariance
  rw [e, e, e]
  simp only [Nat.add_zero]
  push_cast at h2
  rw [show k + 2 = k + 1 + 1 from rfl]
  generalize (∫ x in (0 : ℝ)..1, x ^ (k + 1 + 1) * (1 - x) ^ l) = I2 at *
  generalize (∫ x in (0 : ℝ)..1, x ^ (k + 1) * (1 - x) ^ l) = I1 at *
  generalize (∫ x in (0 : ℝ)..1, x ^ k * (1 - x) ^ l) = I0 at *
  have hs : (0 : ℝ) < k + l + 2 := by positivity
  have hs' : (0 : ℝ) < k + l + 3 := by positivity
  have f1 : I1 = (k + 1) * I0 / (k + l + 2) := by rw [eq_div_iff hs.ne']; linarith
  have f2 : I2 = (k + 2) * I1 / (k + l + 3) := by rw [eq_div_iff hs'.ne']; linarith
  rw [f2, f1]
  field_simp
  ring

/-- **C134.** It is at most a quarter of one over the number of observations plus three, and never zero. -/
theorem c134_posterior_range (k l : ℕ) : 0 < posteriorVariance k l ∧ posteriorVariance k l ≤ 1 / (4 * ((k : ℝ) + l + 3)) := by
  rw [c134_posterior]
  refine ⟨by positivity, ?_⟩
  rw [div_le_div_iff₀ (by positivity) (by positivity)]
  have : 4 * (((k : ℝ) + 1) * (l + 1)) ≤ (k + l + 2) ^ 2 := by nlinarith [sq_nonneg ((k : ℝ) - l)]
  have hs' : (0 : ℝ) < k + l + 3 := by positivity
  nlinarith

/-! ### The Bayes estimator -/

theorem check_var (h : Half) (p : List ℝ) : (h.check p).1.var = h.var ∧ (h.check p).1.ones = h.ones ∧ (h.check p).1.zeros = h.zeros := by
  unfold Half.check
  split
  · exact ⟨rfl, rfl, rfl⟩
  · split <;> exact ⟨rfl, rfl, rfl⟩

theorem bayes_var {c : WbdCfg} (hb : c.bayes = true) (hm : 0 < c.modelLength) (h : Half) (hc : Counters c.modelLength h.ones h.zeros)
    {bits : List Bool} (hl : bits.length = c.modelLength) :
    (h.update c bits).1.var = .val (betaVariance c.bitFlip (h.update c bits).1.ones (h.update c bits).1.zeros) := by
  obtain ⟨hc1, hat⟩ := countBits_spec hc hl
  obtain ⟨o, z, hr, _⟩ := rescale_spec (w := c.window.getD 0) hm hc1
  have hupd : h.update c bits = Half.check { h with ones := o, zeros := z, var := .val (betaVariance c.bitFlip o z), dist := (List.zipWith (fun o z => corrected c.bitFlip (betaMode o z)) o z).map fun (p : ℝ) => [1 - p, p] }
      (List.zipWith (fun o z => corrected c.bitFlip (betaMode o z)) o z) := by
    unfold Half.update
    rw [if_neg (by simp [hl]), if_pos hb]
    rcases hcb : countBits h.ones h.zeros bits with ⟨o1, z1⟩
    rw [hcb] at hr
    simp only [hr]
  rw [hupd]
  obtain ⟨e1, e2, e3⟩ := check_var { h with ones := o, zeros := z, var := .val (betaVariance c.bitFlip o z), dist := (List.zipWith (fun o z => corrected c.bitFlip (betaMode o z)) o z).map fun (p : ℝ) => [1 - p, p] }
      (List.zipWith (fun o z => corrected c.bitFlip (betaMode o z)) o z)
  rw [e1, e2, e3]

theorem zip_sum (f : Nat → Nat → ℝ) : ∀ (n : Nat) (x y : List Nat), x.length = n → y.length = n →
    (List.zipWith f x y).sum = ∑ j ∈ Finset.range n, f (x.getD j 0) (y.getD j 0)
  | 0, x, y, hx, _ => by rw [List.length_eq_zero_iff.1 hx]; simp
  | n + 1, [], _, hx, _ => by simp at hx
  | n + 1, _, [], _, hy => by simp at hy
  | n + 1, a :: x, b :: y, hx, hy => by
    rw [List.zipWith_cons_cons, List.sum_cons, Finset.sum_range_succ', zip_sum f n x y (by simpa using hx) (by simpa using hy)]
    simp [add_comm]

/-- The normalised variance of a model that has learned the words `ws`: the mean over its bits of the variance of the chance of a one,
in units of the variance 1/12 of a chance of which nothing is known, and as it is after the correction for flipped bits. -/
noncomputable def modelVariance (f : ℝ) (L : Nat) (ws : List (List Bool)) : ℝ :=
  1 / (1 - 2 * f) ^ 2 * (∑ j ∈ Finset.range L, 12 * posteriorVariance (countAt true ws j) (countAt false ws j)) / L

/-- **C134.** The Bayes estimator: with words learned, fewer than twice the window length less one, the number of samples is the number
of words learned and the normalised variance is that of a chance of which only these words are known. -/
theorem c134_bayes {Λ : Type} {c : WbdCfg} (hb : c.bayes = true) (hm : 0 < c.modelLength) (hx : c.idx.length = c.modelLength)
    {w : Nat} (hw : c.window = some w)
    (ldpc : Ldpc Λ) {l : Λ} {s0 s : Wbd Λ} (h0 : Wbd.new c l = .ok s0) {words : List (List ℝ)} {steps : List (WbdStep Λ)}
    (hr : Wbd.run c ldpc s0 words = (s, steps)) (h : Half) (ws : List (List Bool))
    (hh : (h = s.a ∧ ws = goodWords c.idx (wbdEvents words steps)) ∨ (h = s.b ∧ ws = allWords c.idx (wbdEvents words steps)))
    (hle : ws.length + 2 ≤ 2 * w) :
    h.size c = .ok ws.length ∧ (ws ≠ [] → h.var = .val (modelVariance c.bitFlip c.modelLength ws)) ∧
      (ws = [] → h.var = .pyZero) := by
  obtain ⟨ha, hbb⟩ := bayes_run hb hm hx ldpc h0 hr
  have hi : BayesInv c h ws := by
    rcases hh with ⟨rfl, rfl⟩ | ⟨rfl, rfl⟩
    · exact ha
    · exact hbb
  have he := hi.exact (by rw [hw]; exact hle)
  refine ⟨?_, ?_, ?_⟩
  · obtain ⟨e1, e2⟩ := he 0 hm
    have h1 := hi.counters.lenO
    have h2 := hi.counters.lenZ
    unfold Half.size
    rw [if_pos hb]
    match ho : h.ones, hz : h.zeros with
    | [], _ => rw [ho] at h1; simp at h1; omega
    | _ :: _, [] => rw [hz] at h2; simp at h2; omega
    | o :: _, z :: _ =>
      simp only [Except.ok.injEq]
      rw [ho] at e1
      rw [hz] at e2
      simp at e1 e2
      have := countAt_total ws 0
      omega
  · intro hne
    obtain ⟨ws', b, rfl⟩ : ∃ ws' b, ws = ws' ++ [b] := ⟨ws.dropLast, ws.getLast hne, (List.dropLast_append_getLast hne).symm⟩
    have hlen := hi.lens b (by simp)
    have hprev : ∀ x ∈ ws', x.length = c.modelLength := fun x hx => hi.lens x (by simp [hx])
    have hcount : ∀ (ws : List (List Bool)), (∀ x ∈ ws, x.length = c.modelLength) →
        Counters c.modelLength (learnAll c (Half.new c) ws).ones (learnAll c (Half.new c) ws).zeros := by
      intro ws
      induction ws using List.reverseRecOn with
      | nil =>
        intro _
        unfold learnAll Half.new
        rw [if_pos hb]
        exact ⟨by simp [hx], by simp [hx], by simp, by simp⟩
      | append_singleton ws y ih =>
        intro hl
        rw [learnAll_snoc]
        obtain ⟨h', e1, e2, _⟩ := c65_step hb hm hw _ (ih fun x hx => hl x (by simp [hx])) y (hl y (by simp))
        rw [e1]
        exact e2
    have hv := bayes_var hb hm (learnAll c (Half.new c) ws') (hcount ws' hprev) hlen
    rw [← learnAll_snoc, ← hi.hist] at hv
    rw [hv]
    congr 1
    unfold betaVariance modelVariance
    rw [zip_sum _ c.modelLength _ _ hi.counters.lenO hi.counters.lenZ, hi.counters.lenO, ← Finset.mul_sum]
    have hs : ∀ j ∈ Finset.range c.modelLength, ((h.ones.getD j 0 : Nat) : ℝ) * (h.zeros.getD j 0 : Nat) /
        ((((h.ones.getD j 0 : Nat) : ℝ) + (h.zeros.getD j 0 : Nat) + 1) * (((h.ones.getD j 0 : Nat) : ℝ) + (h.zeros.getD j 0 : Nat)) ^ 2) =
        posteriorVariance (countAt true (ws' ++ [b]) j) (countAt false (ws' ++ [b]) j) := by
      intro j hj
      obtain ⟨e1, e2⟩ := he j (Finset.mem_range.1 hj)
      rw [e1, e2, c134_posterior]
      push_cast
      congr 1
      ring
    rw [Finset.sum_congr rfl hs]
    rw [one_div, inv_pow]
    ring
  · intro hnil
    rw [hi.hist, hnil]
    unfold learnAll Half.new
    rw [if_pos hb]
    rfl

/-- **C134.** The variance falls with the number of words: with `n` of them it is at most 3 / ((1 - 2 f)² (n + 3)), and positive. -/
theorem c134_bayes_range (f : ℝ) (hf : f ≠ 1 / 2) (L : Nat) (hL : 0 < L) (ws : List (List Bool)) :
    0 < modelVariance f L ws ∧ modelVariance f L ws ≤ 3 / ((1 - 2 * f) ^ 2 * (ws.length + 3)) := by
  have hf' : 0 < (1 - 2 * f) ^ 2 := by
    have : 1 - 2 * f ≠ 0 := fun h => hf (by linarith)
    positivity
  have hL' : (0 : ℝ) < L := by exact_mod_cast hL
  have hn : (0 : ℝ) < ws.length + 3 := by positivity
  have h1 : ∀ j ∈ Finset.range L, 12 * posteriorVariance (countAt true ws j) (countAt false ws j) ≤ 3 / (ws.length + 3) := by
    intro j _
    have := (c134_posterior_range (countAt true ws j) (countAt false ws j)).2
    have hc : ((countAt true ws j : Nat) : ℝ) + (countAt false ws j : Nat) = ws.length := by exact_mod_cast countAt_total ws j
    rw [hc] at this
    have e : 3 / ((ws.length : ℝ) + 3) = 12 * (1 / (4 * ((ws.length : ℝ) + 3))) := by field_simp; norm_num
    rw [e]
    linarith
  have h2 := Finset.sum_le_sum h1
  rw [Finset.sum_const, Finset.card_range, nsmul_eq_mul] at h2
  have h3 : 0 < ∑ j ∈ Finset.range L, 12 * posteriorVariance (countAt true ws j) (countAt false ws j) :=
    Finset.sum_pos (fun j _ => by have := (c134_posterior_range (countAt true ws j) (countAt false ws j)).1; linarith)
      ⟨0, Finset.mem_range.2 hL⟩
  unfold modelVariance
  refine ⟨by positivity, ?_⟩
  have e : 3 / ((1 - 2 * f) ^ 2 * ((ws.length : ℝ) + 3)) = 1 / (1 - 2 * f) ^ 2 * (L * (3 / (ws.length + 3))) / L := by
    field_simp
  rw [e]
  gcongr

/-! ### The MLE estimator -/

theorem range_sum (f g : Nat → ℝ) (h : ∀ j, f j = g j) (n : Nat) : ((List.range n).map f).sum = ∑ j ∈ Finset.range n, g j := by
  induction n with
  | zero => simp
  | succ n ih => simp [List.range_succ, Finset.sum_range_succ, ih, h]

theorem mle_var {c : WbdCfg} (hb : c.bayes = false) (hm : 0 < c.modelLength) (hw : c.window ≠ some 0) (h : Half)
    {bits : List Bool} (hl : bits.length = c.modelLength) (hbl : BothLetters c.modelLength (growData c.window h.data bits)) :
    (h.update c bits).1.var = .val (2 * (((List.range c.modelLength).map fun (j : Nat) =>
      mleProb c (growData c.window h.data bits) j - mleProb c (growData c.window h.data bits) j ^ 2).sum / c.modelLength)) := by
  have hne := growData_ne hw h.data bits
  generalize hd : growData c.window h.data bits = data at *
  obtain ⟨dist, h1, h2, h3, h4⟩ := probOf_spec hm hne
  unfold Half.update
  rw [if_neg (by simp [hl]), hb]
  simp only [Bool.false_eq_true, if_false, hd, h1, (h3 hbl).1]
  rw [(check_var _ _).1]
  simp only
  congr 2
  rw [List.length_map, List.length_map, List.length_range, List.map_map, List.map_map]
  congr 2
  refine List.map_congr_left fun j _ => ?_
  simp only [Function.comp, mleProb, oneShare]
  push_cast
  rfl

/-- **C134.** The MLE estimator, after calls that all returned: the number of samples is the number of words in the window, and the
variance is twice the mean of p (1 - p) over the model bits, p being the learned probabilities; so it is at most one half. -/
theorem c134_mle {Λ : Type} {c : WbdCfg} (hb : c.bayes = false) (hm : 0 < c.modelLength) (hx : c.idx.length = c.modelLength)
    (hw : c.window ≠ some 0) (ldpc : Ldpc Λ) {l : Λ} {s0 s : Wbd Λ} (h0 : Wbd.new c l = .ok s0) {words : List (List ℝ)}
    {steps : List (WbdStep Λ)} (hr : Wbd.run c ldpc s0 words = (s, steps))
    (hall : ∀ st ∈ steps, ∃ out, st.result = .ok out) (h : Half) (ws : List (List Bool))
    (hh : (h = s.a ∧ ws = goodWords c.idx (wbdEvents words steps)) ∨ (h = s.b ∧ ws = allWords c.idx (wbdEvents words steps))) :
    h.size c = .ok (keep c.window ws).length ∧
    (ws ≠ [] → h.var = .val (2 * ((∑ j ∈ Finset.range c.modelLength,
      mleProb c (keep c.window ws) j * (1 - mleProb c (keep c.window ws) j)) / c.modelLength))) ∧
    (ws = [] → h.var = .unset) ∧
    (0 ≤ 2 * ((∑ j ∈ Finset.range c.modelLength, mleProb c (keep c.window ws) j * (1 - mleProb c (keep c.window ws) j)) / c.modelLength) ∧
      2 * ((∑ j ∈ Finset.range c.modelLength, mleProb c (keep c.window ws) j * (1 - mleProb c (keep c.window ws) j)) / c.modelLength) ≤ 1 / 2) := by
  have hmodels := c71_models ldpc h0 hr (.inr hall)
  obtain ⟨rfl, _⟩ := wbd_new h0
  have hn : MleInv c (Half.new c) [] := by
    have hk : keep c.window ([] : List (List Bool)) = [] := by cases c.window <;> simp [keep, lastN]
    unfold Half.new
    rw [if_neg (by simp [hb])]
    exact ⟨by simp, hk.symm, rfl, rfl⟩
  have := mle_run hb hm hx hw ldpc words _ [] [] hn hn (by rw [hr]; exact hall)
  rw [hr] at this
  have hi : MleInv c h ws ∧ h = learnAll c (Half.new c) ws := by
    rcases hh with ⟨rfl, rfl⟩ | ⟨rfl, rfl⟩
    · exact ⟨by simpa using this.1, hmodels.1⟩
    · exact ⟨by simpa using this.2, hmodels.2⟩
  obtain ⟨hi, hist⟩ := hi
  have hL : (0 : ℝ) < c.modelLength := by exact_mod_cast hm
  refine ⟨?_, ?_, ?_, ?_, ?_⟩
  · unfold Half.size
    rw [if_neg (by simp [hb]), hi.data]
    have hlen : ∀ x ∈ keep c.window ws, x.length = c.modelLength := by
      intro x hx
      apply hi.lens
      unfold keep at hx
      cases hwin : c.window with
      | none => rw [hwin] at hx; exact hx
      | some n => rw [hwin] at hx; exact List.mem_of_mem_drop hx
    split
    · rename_i hz
      cases hk : keep c.window ws with
      | nil => rfl
      | cons x xs =>
        rw [hk] at hz hlen
        have := hlen x List.mem_cons_self
        simp at hz
        rw [hz.1] at this
        simp at this
        omega
    · rfl
  · intro hne
    obtain ⟨ws', b, rfl⟩ : ∃ ws' b, ws = ws' ++ [b] := ⟨ws.dropLast, ws.getLast hne, (List.dropLast_append_getLast hne).symm⟩
    have hlen := hi.lens b (by simp)
    rw [learnAll_snoc] at hist
    obtain ⟨u1, u2, u3⟩ := mle_update hb hm hw (learnAll c (Half.new c) ws') hlen
    have hg : growData c.window (learnAll c (Half.new c) ws').data b = keep c.window (ws' ++ [b]) := by
      rw [← u1, ← hist, hi.data]
    have hbl : BothLetters c.modelLength (growData c.window (learnAll c (Half.new c) ws').data b) := by
      by_contra hn
      have e1 := (u3 hn).2.1
      rw [← hist, hi.dist, if_neg (by simp)] at e1
      have := congrArg (fun z => (z.getD 0 []).length) e1
      simp [hm] at this
    rw [hist, mle_var hb hm hw _ hlen hbl, hg]
    congr 3
    exact range_sum _ _ (fun j => by ring) _
  · intro hnil
    rw [hist, hnil]
    unfold learnAll Half.new
    rw [if_neg (by simp [hb])]
    rfl
  · have : 0 ≤ ∑ j ∈ Finset.range c.modelLength, mleProb c (keep c.window ws) j * (1 - mleProb c (keep c.window ws) j) :=
      Finset.sum_nonneg fun j _ => by
        obtain ⟨a, b⟩ := mleProb_range c (keep c.window ws) j
        exact mul_nonneg a (by linarith)
    positivity
  · have : ∑ j ∈ Finset.range c.modelLength, mleProb c (keep c.window ws) j * (1 - mleProb c (keep c.window ws) j) ≤
        ∑ j ∈ Finset.range c.modelLength, (1 / 4 : ℝ) := Finset.sum_le_sum fun j _ => by
      nlinarith [sq_nonneg (mleProb c (keep c.window ws) j - 1 / 2)]
    rw [Finset.sum_const, Finset.card_range, nsmul_eq_mul] at this
    have : (∑ j ∈ Finset.range c.modelLength, mleProb c (keep c.window ws) j * (1 - mleProb c (keep c.window ws) j)) / c.modelLength ≤ 1 / 4 := by
      rw [div_le_iff₀ hL]; linarith
    linarith

/-! ### The weights of scheme 4 -/

open Classical in
/-- The weight of a model of variance `x`. -/
noncomputable def weight (x : ℝ) : ℝ := if x = 0 then 1 else 1 - Real.exp (-(1 / (10 * x)))

/-- **C134.** Scheme 4 multiplies each confidence by the weight of its model's variance. -/
theorem c134_weights (a b x y : ℝ) : confidences 4 a b (.val x) (.val y) = .ok (a * weight x, b * weight y) := by
  have hf : ∀ x : ℝ, (Variance.val x).factor = .ok (weight x) := by
    intro x
    unfold Variance.factor weight
    by_cases hx : x = 0
    · simp [hx]
    · simp only [hx, if_false]
      congr 3
      field_simp
  unfold confidences
  simp only [show ¬ ((4 : Int) = 0) by decide, show ¬ ((4 : Int) = 1) by decide, show ¬ ((4 : Int) = 3) by decide, if_false,
    if_true, hf, bind, Except.bind]

/-- **C134.** The smaller the variance, the larger the weight, which is positive and at most 1. -/
theorem c134_weight (x y : ℝ) (hx : 0 ≤ x) (hxy : x < y) : weight y < weight x ∧ 0 < weight y ∧ weight x ≤ 1 := by
  have hy : 0 < y := lt_of_le_of_lt hx hxy
  have e1 : weight y = 1 - Real.exp (-(1 / (10 * y))) := by unfold weight; rw [if_neg hy.ne']
  have h2 : Real.exp (-(1 / (10 * y))) < 1 := by
    rw [Real.exp_lt_one_iff]
    have : 0 < 1 / (10 * y) := by positivity
    linarith
  have h3 := Real.exp_pos (-(1 / (10 * y)))
  rcases hx.eq_or_lt with h | h
  · have e2 : weight x = 1 := by unfold weight; rw [if_pos h.symm]
    rw [e1, e2]
    exact ⟨by linarith, by linarith, le_refl _⟩
  · have e2 : weight x = 1 - Real.exp (-(1 / (10 * x))) := by unfold weight; rw [if_neg h.ne']
    rw [e1, e2]
    have h4 := Real.exp_pos (-(1 / (10 * x)))
    refine ⟨?_, by linarith, by linarith⟩
    have : Real.exp (-(1 / (10 * x))) < Real.exp (-(1 / (10 * y))) := by
      rw [Real.exp_lt_exp]
      have : 1 / (10 * y) < 1 / (10 * x) := by
        apply one_div_lt_one_div_of_lt <;> linarith
      linarith
    linarith

/-- **C134.** With the Bayes estimator the weight grows to 1 with the number of words. -/
theorem c134_bayes_weight (f : ℝ) (hf : f ≠ 1 / 2) (L : Nat) (hL : 0 < L) (ws : List (List Bool)) :
    1 - Real.exp (-((1 - 2 * f) ^ 2 * (ws.length + 3) / 30)) ≤ weight (modelVariance f L ws) := by
  obtain ⟨h1, h2⟩ := c134_bayes_range f hf L hL ws
  have hf' : 0 < (1 - 2 * f) ^ 2 := by
    have : 1 - 2 * f ≠ 0 := fun h => hf (by linarith)
    positivity
  have hn : (0 : ℝ) < ws.length + 3 := by positivity
  unfold weight
  rw [if_neg h1.ne']
  have : Real.exp (-(1 / (10 * modelVariance f L ws))) ≤ Real.exp (-((1 - 2 * f) ^ 2 * (ws.length + 3) / 30)) := by
    rw [Real.exp_le_exp]
    have : (1 - 2 * f) ^ 2 * (ws.length + 3) / 30 ≤ 1 / (10 * modelVariance f L ws) := by
      rw [div_le_div_iff₀ (by norm_num) (by positivity)]
      rw [le_div_iff₀ (by positivity)] at h2
      nlinarith
    linarith
  linarith

/-! ### The second attempt -/

/-- The confidence in a model of `n` words. -/
noncomputable def trust (n : Nat) (center slope : ℝ) : ℝ := if n ≤ 1 then 0 else 1 / (1 + Real.exp (-((n : ℝ) - center) * slope))

open Classical in
/-- What a model that has learned the words `ws` adds to the received value of model bit `k`: nothing unless the entropy of the bit is
below the threshold, and otherwise the log ratio of its probabilities, times the confidence, times the weight of its variance. -/
noncomputable def addition (c : WbdCfg) (center slope : ℝ) (ws : List (List Bool)) (k : Nat) : ℝ :=
  if scipyEntropy [1 - corrected c.bitFlip (oneShare ws k), corrected c.bitFlip (oneShare ws k)] 2 < c.threshold then
    trust ws.length center slope * weight (modelVariance c.bitFlip c.modelLength ws) *
      Real.log ((floatEps + (1 - corrected c.bitFlip (oneShare ws k))) / (corrected c.bitFlip (oneShare ws k) + floatEps))
  else 0

theorem finish_handed {Λ : Type} (c : WbdCfg) (s : Wbd Λ) (handed : List LdpcIn) (o : LdpcOut) (first : Bool) (word : List ℝ) :
    (s.finish c handed o first word).handed = handed := by
  unfold Wbd.finish
  split
  · rfl
  · split
    · rfl
    · simp only
      split
      · rfl
      · split <;> rfl

/-- **C134.** Scheme 4 with the Bayes estimator, after any history: if the received word is not decoded at the first attempt, both models
have learned words, fewer than twice the window length less one, and one of them has a low-entropy bit elsewhere than at the first place
of the codeword, then the second attempt gets the received word with the additions of both models, clipped. -/
theorem c134_second {Λ : Type} {c : WbdCfg} (hb : c.bayes = true) (h4 : c.scheme = 4) (hm : 0 < c.modelLength)
    (hx : c.idx.length = c.modelLength) (hnd : c.idx.Nodup) {w : Nat} (hw : c.window = some w) (hf : c.bitFlip ≠ 1 / 2)
    (ldpc : Ldpc Λ) {l : Λ} {s0 s : Wbd Λ} (h0 : Wbd.new c l = .ok s0) {words : List (List ℝ)} {steps : List (WbdStep Λ)}
    (hr : Wbd.run c ldpc s0 words = (s, steps)) (wa wb : List (List Bool)) (hwa : wa = goodWords c.idx (wbdEvents words steps))
    (hwb : wb = allWords c.idx (wbdEvents words steps)) (hna : wa ≠ []) (hnb : wb ≠ []) (hla : wa.length + 2 ≤ 2 * w)
    (hlb : wb.length + 2 ≤ 2 * w) (word : List ℝ) (hlt : ∀ i ∈ c.idx, i < word.length) {m : ℝ} (hmax : pyMax word = .ok m)
    (hfail : (ldpc s.ldpc (.llr word)).2.success = false)
    (hlow : ∃ k < c.modelLength, c.idx.getD k 0 ≠ 0 ∧ ∃ ws, (ws = wa ∨ ws = wb) ∧
      scipyEntropy [1 - corrected c.bitFlip (oneShare ws k), corrected c.bitFlip (oneShare ws k)] 2 < c.threshold) :
    ∃ v, (s.decode c ldpc word).handed = [.llr word, .llr v] ∧ v.length = word.length ∧
      (∀ i < word.length, i ∉ c.idx → v.getD i 0 = npClip (-(c.clipping * m)) (c.clipping * m) (word.getD i 0)) ∧
      ∀ k (hk : k < c.idx.length), v.getD c.idx[k] 0 = npClip (-(c.clipping * m)) (c.clipping * m)
        (word.getD c.idx[k] 0 + addition c c.aCenter c.aSlope wa k + addition c c.bCenter c.bSlope wb k) := by
  obtain ⟨sa, va, _⟩ := c134_bayes hb hm hx hw ldpc h0 hr s.a wa (.inl ⟨rfl, hwa⟩) hla
  obtain ⟨sb, vb, _⟩ := c134_bayes hb hm hx hw ldpc h0 hr s.b wb (.inr ⟨rfl, hwb⟩) hlb
  have da := (c65_exact hb hm hx hw ldpc h0 hr s.a wa (.inl ⟨rfl, hwa⟩) hla).2 hna
  have db := (c65_exact hb hm hx hw ldpc h0 hr s.b wb (.inr ⟨rfl, hwb⟩) hlb).2 hnb
  have ea := (c65_probabilities hb hm hx ldpc h0 hr s.a wa (.inl ⟨rfl, hwa⟩)).2.2.2
  have eb := (c65_probabilities hb hm hx ldpc h0 hr s.b wb (.inr ⟨rfl, hwb⟩)).2.2.2
  have hlowAt : ∀ (h : Half) (ws : List (List Bool)), h.dist = (List.range c.modelLength).map (fun (j : Nat) =>
      [1 - corrected c.bitFlip (oneShare ws j), corrected c.bitFlip (oneShare ws j)]) → (h.ents = h.dist.map fun r => scipyEntropy r 2) →
      ∀ k < c.modelLength, (LowAt c.threshold h.ents k ↔
        scipyEntropy [1 - corrected c.bitFlip (oneShare ws k), corrected c.bitFlip (oneShare ws k)] 2 < c.threshold) := by
    intro h ws hd he k hk
    unfold LowAt
    rw [he, hd]
    simp [hk]
  have hents : ∀ (h : Half) (ws : List (List Bool)), h.dist = (List.range c.modelLength).map (fun (j : Nat) =>
      [1 - corrected c.bitFlip (oneShare ws j), corrected c.bitFlip (oneShare ws j)]) → (h.ents = h.dist.map fun r => scipyEntropy r 2) →
      Fits c h := by
    intro h ws hd he
    refine ⟨by rw [he, hd]; simp [hx], by rw [hd]; simp [hx], ?_⟩
    rw [hd]
    intro r hr
    obtain ⟨j, _, rfl⟩ := List.mem_map.1 hr
    simp
  have fa := hents s.a wa da ea
  have fb := hents s.b wb db eb
  have hboost : ∀ (h : Half) (ws : List (List Bool)) (center slope : ℝ), h.dist = (List.range c.modelLength).map (fun (j : Nat) =>
      [1 - corrected c.bitFlip (oneShare ws j), corrected c.bitFlip (oneShare ws j)]) → (h.ents = h.dist.map fun r => scipyEntropy r 2) →
      ∀ k < c.modelLength, boost c h (modelConfidence ws.length center slope * weight (modelVariance c.bitFlip c.modelLength ws)) k =
        addition c center slope ws k := by
    intro h ws center slope hd he k hk
    unfold boost addition
    have hrow : h.dist.getD k [] = [1 - corrected c.bitFlip (oneShare ws k), corrected c.bitFlip (oneShare ws k)] := by
      rw [hd]; simp [hk]
    rw [hrow]
    by_cases hlw : scipyEntropy [1 - corrected c.bitFlip (oneShare ws k), corrected c.bitFlip (oneShare ws k)] 2 < c.threshold
    · rw [if_pos ((hlowAt h ws hd he k hk).2 hlw), if_pos hlw]
      rfl
    · rw [if_neg (fun h' => hlw ((hlowAt h ws hd he k hk).1 h')), if_neg hlw]
  have hpos : ∀ (ws : List (List Bool)) (center slope : ℝ),
      0 ≤ modelConfidence ws.length center slope * weight (modelVariance c.bitFlip c.modelLength ws) := by
    intro ws center slope
    have h1 := (c71_confidences ws.length center slope).1.1
    have h2 := (c134_bayes_range c.bitFlip hf c.modelLength hm ws).1
    have h3 := (c134_weight 0 _ (le_refl _) h2).2.1
    positivity
  obtain ⟨v, p1, p2, p3, p4⟩ := c71_prediction ({ s with ldpc := (ldpc s.ldpc (.llr word)).1 } : Wbd Λ) hnd (.inr fa.ents) (.inr fb.ents)
    (by
      obtain ⟨k, hk, hi, ws, hws, hlw⟩ := hlow
      refine ⟨k, ?_, hi⟩
      rcases hws with rfl | rfl
      · exact .inl ((hlowAt s.a _ da ea k hk).2 hlw)
      · exact .inr ((hlowAt s.b _ db eb k hk).2 hlw))
    sa sb (ca := modelConfidence wa.length c.aCenter c.aSlope * weight (modelVariance c.bitFlip c.modelLength wa))
    (cb := modelConfidence wb.length c.bCenter c.bSlope * weight (modelVariance c.bitFlip c.modelLength wb))
    (by
      simp only
      rw [h4, va hna, vb hnb]
      exact c134_weights _ _ _ _) (hpos _ _ _) (hpos _ _ _) (fun _ => fa) (fun _ => fb) word hlt hmax
  refine ⟨v, ?_, p2, p3, ?_⟩
  · unfold Wbd.decode
    simp only [hfail, Bool.false_eq_true, if_false, p1]
    exact finish_handed _ _ _ _ _ _
  · intro k hk
    rw [p4 k hk, hboost s.a wa _ _ da ea k (by omega), hboost s.b wb _ _ db eb k (by omega)]

/-! ### The hypotheses can be met -/

/-- The bits of a heartbeat. -/
def beat : List Bool := exWord.drop (8 * 20)

/-- A decoder for the bits of one heartbeat, with scheme 4. -/
noncomputable def beatCfg : WbdCfg :=
  { oneBitCfg 20 with idx := List.range 136, modelLength := 136, threshold := 2, scheme := 4, bitFlip := 1 / 20 }

/-- An LDPC decoder that decodes the first word to the heartbeat and fails from then on. -/
def onceLdpc : Ldpc Bool := fun first _ => (false, ⟨beat, [], first, 1, [], []⟩)

theorem beat_recovered : Recovered (bytesOf (bitsAt beatCfg.idx beat)) := by
  have hb : bytesOf (bitsAt (List.range 136) beat) = sampleBuffer.drop 20 := by decide +kernel
  show Recovered (bytesOf (bitsAt (List.range 136) beat))
  rw [hb]
  have hm : messagesIn (sampleBuffer.drop 20) = [(0, 0)] := by decide +kernel
  have hl : (sampleBuffer.drop 20).length = 17 := by decide
  intro k hk
  rw [hm]
  refine ⟨(0, 0), by simp, ?_⟩
  rw [hl] at hk
  have h9 : lenOf 0 = 9 := by decide +kernel
  unfold Covers
  simp only [h9]
  omega

theorem beat_run (word : List ℝ) : ∃ s0 s steps, Wbd.new beatCfg true = .ok s0 ∧ Wbd.run beatCfg onceLdpc s0 [word] = (s, steps) ∧
    s.ldpc = false ∧ goodWords beatCfg.idx (wbdEvents [word] steps) = [beat] ∧ allWords beatCfg.idx (wbdEvents [word] steps) = [beat] := by
  have hl : beat.length = beatCfg.modelLength := by
    show beat.length = 136
    decide +kernel
  have hx : beatCfg.idx.length = beatCfg.modelLength := by simp [beatCfg]
  have hm : 0 < beatCfg.modelLength := by simp [beatCfg]
  have hba : bitsAt beatCfg.idx beat = beat := by
    show bitsAt (List.range 136) beat = beat
    decide +kernel
  have htk : takeIdx beat beatCfg.idx = .ok beat := by
    show takeIdx beat (List.range 136) = .ok beat
    decide +kernel
  have hn := bayes_new (c := beatCfg) rfl hm hx
  set h0 := Half.new beatCfg with hh0
  obtain ⟨h', hu, hi, _⟩ := bayes_update (c := beatCfg) rfl hm hn (bits := beat) hl
  obtain ⟨seg, hseg, _⟩ := c20_never_raises (packBits beat)
  have : ∃ st : WbdStep Bool, (⟨h0, h0, true⟩ : Wbd Bool).decode beatCfg onceLdpc word = st ∧ st.handed.length = 1 ∧
      st.state.ldpc = false ∧ ∃ out, st.result = .ok out ∧ out.estimate = beat := by
    have hd : (⟨h0, h0, true⟩ : Wbd Bool).decode beatCfg onceLdpc word =
        Wbd.finish beatCfg ⟨h0, h0, false⟩ [.llr word] ⟨beat, [], true, 1, [], []⟩ true word := by
      unfold Wbd.decode onceLdpc
      simp only [if_true]
    refine ⟨_, rfl, ?_⟩
    rw [hd]
    unfold Wbd.finish
    simp only [htk, hseg, Bool.true_or, if_true, Wbd.learn, Wbd.updateA, Wbd.updateB, hu]
    cases decide (MsgPart.unknown ∉ seg.parts)
    · obtain ⟨out, ho, he, _⟩ := wbd_output (c := beatCfg) (⟨h0, h', false⟩ : Wbd Bool) ⟨beat, [], true, 1, [], []⟩
        seg.struct.length (bayes_ents hn hx) (bayes_ents hi hx)
      exact ⟨rfl, rfl, out, ho, he⟩
    · obtain ⟨out, ho, he, _⟩ := wbd_output (c := beatCfg) (⟨h', h', false⟩ : Wbd Bool) ⟨beat, [], true, 1, [], []⟩
        seg.struct.length (bayes_ents hi hx) (bayes_ents hi hx)
      exact ⟨rfl, rfl, out, ho, he⟩
  obtain ⟨st, hst, hk, hb, out, ho, he⟩ := this
  refine ⟨⟨h0, h0, true⟩, st.state, [st], rfl, ?_, hb, ?_, ?_⟩
  · simp only [Wbd.run, hst]
  · have := goodWords_one beatCfg.idx ⟨word, st.handed.length, st.result⟩ out ho
    rw [he] at this
    unfold recoveredWord at this
    rw [if_pos beat_recovered, hba] at this
    exact this
  · have := (allWords_one beatCfg.idx ⟨word, st.handed.length, st.result⟩ out ho).1 (Or.inl hk)
    rw [he, hba] at this
    exact this

/-- The hypotheses of `c134_bayes` and `c134_second` are met by the decoder of one heartbeat, after it has decoded one. -/
example (word : List ℝ) : ∃ s0 s steps, Wbd.new beatCfg true = .ok s0 ∧ Wbd.run beatCfg onceLdpc s0 [word] = (s, steps) ∧
    beatCfg.bayes = true ∧ beatCfg.scheme = 4 ∧ beatCfg.idx.Nodup ∧ beatCfg.bitFlip ≠ 1 / 2 ∧
    goodWords beatCfg.idx (wbdEvents [word] steps) = [beat] ∧ allWords beatCfg.idx (wbdEvents [word] steps) = [beat] ∧
    (onceLdpc s.ldpc (.llr (List.replicate 136 1))).2.success = false ∧
    (∀ i ∈ beatCfg.idx, i < (List.replicate 136 (1 : ℝ)).length) ∧ pyMax (List.replicate 136 1) = .ok 1 ∧
    ∃ k < beatCfg.modelLength, beatCfg.idx.getD k 0 ≠ 0 ∧
      scipyEntropy [1 - corrected beatCfg.bitFlip (oneShare [beat] k), corrected beatCfg.bitFlip (oneShare [beat] k)] 2 < beatCfg.threshold := by
  obtain ⟨s0, s, steps, h1, h2, h3, h4, h5⟩ := beat_run word
  refine ⟨s0, s, steps, h1, h2, rfl, rfl, List.nodup_range, ?_, h4, h5, by rw [h3]; rfl, by simp [beatCfg], ?_, 1, by simp [beatCfg],
    by simp [beatCfg], ?_⟩
  · simp only [beatCfg]; norm_num
  · have : ∀ n, (List.replicate n (1 : ℝ)).foldl max 1 = 1 := by
      intro n
      induction n with
      | zero => rfl
      | succ n ih => rw [List.replicate_succ, List.foldl_cons, max_self]; exact ih
    rw [List.replicate_succ]
    exact congrArg Except.ok (this 135)
  · rw [entropyPair]
    have h2 : (0 : ℝ) < Real.log 2 := Real.log_pos (by norm_num)
    rw [div_lt_iff₀ h2]
    refine lt_of_le_of_lt Real.binEntropy_le_log_two ?_
    show Real.log 2 < 2 * Real.log 2
    linarith

/-- What is known of a chance after one 1 in one word: the density is proportional to `x`, with variance 1/18, less than 1/12. -/
example : posteriorVariance 1 0 = 1 / 18 ∧ posteriorVariance 0 0 = 1 / 12 := by
  rw [c134_posterior, c134_posterior]
  norm_num

end NR.C134

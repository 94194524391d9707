import Verif.Model.Bmm
import Mathlib.Analysis.Convex.SpecificFunctions.Basic
import Mathlib.Analysis.Convex.Jensen
import Mathlib.Algebra.Order.BigOperators.Ring.Finset
import Mathlib.Algebra.BigOperators.Field
import Mathlib.Tactic.Linarith
import Mathlib.Tactic.Positivity
import Mathlib.Tactic.FieldSimp
import Mathlib.Tactic.NormNum
/-
C51: the parameters of the Bernoulli mixture stay probabilistic. C52: EM does not decrease the likelihood.
-/
namespace NR
open Finset

variable {K D N : Nat}

/-- Parameters of a mixture: positive weights adding up to one, means in [0,1]. -/
def Bmm.Valid (p : Bmm K D) : Prop := (∀ k, 0 < p.pi k) ∧ ∑ k, p.pi k = 1 ∧ ∀ k d, 0 ≤ p.mu k d ∧ p.mu k d ≤ 1

/-- The data are 0/1 valued. -/
def IsBinary (x : Fin N → Fin D → ℝ) : Prop := ∀ i d, x i d = 0 ∨ x i d = 1

theorem IsBinary.mem {x : Fin N → Fin D → ℝ} (h : IsBinary x) (i : Fin N) (d : Fin D) : 0 ≤ x i d ∧ x i d ≤ 1 := by
  rcases h i d with h | h <;> rw [h] <;> norm_num

theorem muPlace_bounds (mu : Fin K → Fin D → ℝ) (k : Fin K) (d : Fin D) (h : 0 ≤ mu k d) :
    0 < muPlace mu k d ∧ mu k d ≤ muPlace mu k d ∧ muPlace mu k d ≤ mu k d + 1e-15 ∧
      (mu k d ≤ 1 → muPlace mu k d ≤ 1) := by
  classical
  unfold muPlace
  have e : (1e-200 : ℝ) ≤ 1e-15 := by norm_num
  have e1 : (0 : ℝ) < 1e-200 := by norm_num
  have e2 : (1e-15 : ℝ) ≤ 1 := by norm_num
  simp only
  by_cases h1 : ∀ j, mu j d ≤ 1e-15
  · rw [if_pos h1]
    have hk := h1 k
    rw [if_neg (by rw [abs_of_pos (by linarith)]; linarith)]
    refine ⟨by linarith, hk, by linarith, fun _ => e2⟩
  · rw [if_neg h1]
    by_cases h2 : |mu k d| < 1e-200
    · rw [if_pos h2]
      have := le_abs_self (mu k d)
      exact ⟨e1, by linarith, by linarith, fun _ => by linarith⟩
    · rw [if_neg h2]
      rw [abs_of_nonneg h] at h2
      exact ⟨by linarith, le_refl _, by linarith, fun h => h⟩

theorem gamma_pos (p : Bmm K D) (x : Fin N → Fin D → ℝ) (i : Fin N) (k : Fin K) : 0 < p.gamma x i k := Real.exp_pos _

theorem weight_sum_pos (hK : 0 < K) (p : Bmm K D) (x : Fin N → Fin D → ℝ) (i : Fin N) :
    0 < ∑ k, Real.exp (Real.log (p.pi k) + p.logBern x i k) := by
  have : Nonempty (Fin K) := ⟨⟨0, hK⟩⟩
  exact Finset.sum_pos (fun k _ => Real.exp_pos _) Finset.univ_nonempty

theorem gamma_eq (hK : 0 < K) (p : Bmm K D) (x : Fin N → Fin D → ℝ) (i : Fin N) (k : Fin K) :
    p.gamma x i k = Real.exp (Real.log (p.pi k) + p.logBern x i k) /
      ∑ k, Real.exp (Real.log (p.pi k) + p.logBern x i k) := by
  rw [Bmm.gamma, Real.exp_sub, Bmm.sampleLogL, Real.exp_log (weight_sum_pos hK p x i)]

/-- C51. Responsibilities are positive and each row adds up to one. -/
theorem c51_responsibilities (hK : 0 < K) (p : Bmm K D) (x : Fin N → Fin D → ℝ) (i : Fin N) :
    (∀ k, 0 < p.gamma x i k) ∧ ∑ k, p.gamma x i k = 1 := by
  refine ⟨gamma_pos p x i, ?_⟩
  simp only [gamma_eq hK]
  rw [← Finset.sum_div, div_self (weight_sum_pos hK p x i).ne']

/-- C51. For positive weights the responsibilities are the posterior probabilities of the components: weight times
likelihood, normalised, the likelihood of a binary row being the product of the (floored) means of its ones and of the
(floored) complements of its zeros. -/
theorem c51_posterior (hK : 0 < K) (p : Bmm K D) (hp : p.Valid) (x : Fin N → Fin D → ℝ) (hx : IsBinary x) (i : Fin N)
    (k : Fin K) :
    p.gamma x i k =
      (p.pi k * ∏ d, if x i d = 1 then muPlace p.mu k d else muPlace (fun k d => 1 - p.mu k d) k d) /
      ∑ j, p.pi j * ∏ d, if x i d = 1 then muPlace p.mu j d else muPlace (fun k d => 1 - p.mu k d) j d := by
  have key : ∀ j, Real.exp (Real.log (p.pi j) + p.logBern x i j) =
      p.pi j * ∏ d, if x i d = 1 then muPlace p.mu j d else muPlace (fun k d => 1 - p.mu k d) j d := by
    intro j
    rw [Real.exp_add, Real.exp_log (hp.1 j), Bmm.logBern, saveSingle, saveSingle, ← Finset.sum_add_distrib,
      Real.exp_sum]
    congr 1
    refine Finset.prod_congr rfl fun d _ => ?_
    have b1 := (muPlace_bounds p.mu j d (hp.2.2 j d).1).1
    have b2 := (muPlace_bounds (fun k d => 1 - p.mu k d) j d (by linarith [(hp.2.2 j d).2])).1
    rcases hx i d with h | h
    · rw [h, if_neg (by norm_num)]; simp [Real.exp_log b2]
    · rw [h, if_pos rfl]; simp [Real.exp_log b1]
  rw [gamma_eq hK]
  simp only [key]

theorem neff_pos (hN : 0 < N) (p : Bmm K D) (x : Fin N → Fin D → ℝ) (k : Fin K) : 0 < neff (p.gamma x) k := by
  have : Nonempty (Fin N) := ⟨⟨0, hN⟩⟩
  exact Finset.sum_pos (fun i _ => gamma_pos p x i k) Finset.univ_nonempty

theorem neff_sum (hK : 0 < K) (p : Bmm K D) (x : Fin N → Fin D → ℝ) : ∑ k, neff (p.gamma x) k = N := by
  simp only [neff]
  rw [Finset.sum_comm]
  simp [(c51_responsibilities hK p x _).2]

/-- C51. One EM iteration on 0/1 data yields valid parameters, whatever the parameters before. -/
theorem c51_step_valid (hK : 0 < K) (hN : 0 < N) (p : Bmm K D) (x : Fin N → Fin D → ℝ) (hx : IsBinary x) :
    (mStep (p.gamma x) x).Valid := by
  have hN' : (0 : ℝ) < N := by exact_mod_cast hN
  refine ⟨fun k => div_pos (neff_pos hN p x k) hN', ?_, fun k d => ⟨?_, ?_⟩⟩
  · simp only [mStep]
    rw [← Finset.sum_div, neff_sum hK, div_self hN'.ne']
  · exact div_nonneg (Finset.sum_nonneg fun i _ => mul_nonneg (gamma_pos p x i k).le (hx.mem i d).1)
      (neff_pos hN p x k).le
  · show (∑ i, p.gamma x i k * x i d) / neff (p.gamma x) k ≤ 1
    rw [div_le_one (neff_pos hN p x k)]
    exact Finset.sum_le_sum fun i _ => mul_le_of_le_one_right (gamma_pos p x i k).le (hx.mem i d).2

theorem init_valid (hK : 0 < K) (u : Fin K → Fin D → ℝ) (hu : ∀ k d, 1 / 4 ≤ u k d ∧ u k d ≤ 3 / 4) :
    (Bmm.init u).Valid := by
  have hK' : (0 : ℝ) < K := by exact_mod_cast hK
  refine ⟨fun k => ?_, ?_, fun k d => ?_⟩
  · simp only [Bmm.init]; positivity
  · simp only [Bmm.init]
    rw [Finset.sum_const, Finset.card_univ, Fintype.card_fin, nsmul_eq_mul]
    field_simp
  · simp only [Bmm.init]
    have h0 : ∀ e, 0 ≤ u k e := fun e => by linarith [(hu k e).1]
    have hle : u k d ≤ ∑ e, u k e := Finset.single_le_sum (fun e _ => h0 e) (Finset.mem_univ d)
    have hpos : 0 < u k d := by linarith [(hu k d).1]
    exact ⟨div_nonneg hpos.le (by linarith), (div_le_one (by linarith)).2 hle⟩

/-- The parameters after `n` undisturbed EM iterations. -/
noncomputable def emIter (x : Fin N → Fin D → ℝ) : Nat → Bmm K D → Bmm K D
  | 0, p => p
  | n + 1, p => emIter x n (mStep (p.gamma x) x)

theorem fitLoop_eq (hN : 0 < N) (x : Fin N → Fin D → ℝ) (n : Nat) (p : Bmm K D) : fitLoop x n p = emIter x n p := by
  induction n generalizing p with
  | zero => rfl
  | succ n ih =>
    simp only [fitLoop, emIter]
    rw [if_neg, ih]
    rintro (h | ⟨k, hk⟩)
    · omega
    · exact (neff_pos hN p x k).ne' hk

theorem emIter_valid (hK : 0 < K) (hN : 0 < N) (x : Fin N → Fin D → ℝ) (hx : IsBinary x) (n : Nat) (p : Bmm K D)
    (hp : p.Valid) : (emIter x n p).Valid := by
  induction n generalizing p with
  | zero => exact hp
  | succ n ih => exact ih _ (c51_step_valid hK hN p x hx)

/-- C51. After fitting 0/1 data for any number of iterations from any draw of the initial means in [1/4,3/4], the mixing
weights are positive and add up to one and the means lie in [0,1]; the restoring branch for a NaN likelihood is never
taken. -/
theorem c51_fit (hK : 0 < K) (hN : 0 < N) (x : Fin N → Fin D → ℝ) (hx : IsBinary x) (u : Fin K → Fin D → ℝ)
    (hu : ∀ k d, 1 / 4 ≤ u k d ∧ u k d ≤ 3 / 4) (n : Nat) :
    (Bmm.fit u n x).Valid ∧ Bmm.fit u n x = emIter x n (Bmm.init u) := by
  rw [Bmm.fit, fitLoop_eq hN]
  exact ⟨emIter_valid hK hN x hx n _ (init_valid hK u hu), rfl⟩

/-- C51. Without samples the likelihood is not a number; the parameters are restored, so `fit` ends with the initial ones. -/
theorem c51_fit_empty (hK : 0 < K) (x : Fin 0 → Fin D → ℝ) (u : Fin K → Fin D → ℝ)
    (hu : ∀ k d, 1 / 4 ≤ u k d ∧ u k d ≤ 3 / 4) (n : Nat) :
    Bmm.fit u n x = Bmm.init u ∧ (Bmm.fit u n x).Valid := by
  have h : Bmm.fit u n x = Bmm.init u := by
    cases n with
    | zero => rfl
    | succ n => simp [Bmm.fit, fitLoop]
  exact ⟨h, h ▸ init_valid hK u hu⟩

example : Bmm.fit (K := 2) (D := 2) (fun _ _ => 1 / 2) 5 (fun i : Fin 0 => i.elim0) = Bmm.init (fun _ _ => 1 / 2) :=
  (c51_fit_empty (by norm_num) _ _ (fun _ _ => by norm_num) 5).1

theorem argmaxFrom_spec (pre ys : List ℝ) (bi : Nat) (best : ℝ) (hbi : pre[bi]? = some best)
    (hmax : ∀ y ∈ pre, y ≤ best) (hfirst : ∀ j, j < bi → ∀ y, pre[j]? = some y → y < best) :
    ∃ v, (pre ++ ys)[argmaxFrom best bi pre.length ys]? = some v ∧ (∀ y ∈ pre ++ ys, y ≤ v) ∧
      ∀ j, j < argmaxFrom best bi pre.length ys → ∀ y, (pre ++ ys)[j]? = some y → y < v := by
  classical
  induction ys generalizing pre bi best with
  | nil => exact ⟨best, by simpa [argmaxFrom] using hbi, by simpa using hmax, by simpa [argmaxFrom] using hfirst⟩
  | cons y ys ih =>
    have happ : pre ++ y :: ys = (pre ++ [y]) ++ ys := by simp
    have hlen : (pre ++ [y]).length = pre.length + 1 := by simp
    have hbl : bi < pre.length := by
      by_contra h
      rw [List.getElem?_eq_none (by omega)] at hbi
      cases hbi
    unfold argmaxFrom
    rw [happ, ← hlen]
    split
    · rename_i hlt
      refine ih (pre ++ [y]) pre.length y (by simp) ?_ ?_
      · intro z hz
        rcases List.mem_append.1 hz with hz | hz
        · exact (hmax z hz).trans hlt.le
        · rw [List.mem_singleton.1 hz]
      · intro j hj z hz
        rw [List.getElem?_append_left hj] at hz
        exact (hmax z (List.mem_of_getElem? hz)).trans_lt hlt
    · rename_i hlt
      refine ih (pre ++ [y]) bi best (by rw [List.getElem?_append_left hbl, hbi]) ?_ ?_
      · intro z hz
        rcases List.mem_append.1 hz with hz | hz
        · exact hmax z hz
        · rw [List.mem_singleton.1 hz]; linarith
      · intro j hj z hz
        rw [List.getElem?_append_left (by omega)] at hz
        exact hfirst j hj z hz

/-- C51. predict returns the index of a component with maximal responsibility (the first such). -/
theorem c51_predict (hK : 0 < K) (p : Bmm K D) (x : Fin N → Fin D → ℝ) (i : Fin N) :
    ∃ k : Fin K, p.predictRow x i = .ok k ∧ (∀ j, p.gamma x i j ≤ p.gamma x i k) ∧
      ∀ j : Fin K, j < k → p.gamma x i j < p.gamma x i k := by
  unfold Bmm.predictRow
  obtain ⟨y, ys, hy⟩ := List.exists_cons_of_ne_nil (l := List.ofFn (p.gamma x i))
    (by rw [Ne, List.ofFn_eq_nil_iff]; omega)
  obtain ⟨v, hv, hmax, hfirst⟩ := argmaxFrom_spec [y] ys 0 y (by simp) (by simp) (by simp)
  simp only [List.singleton_append, List.length_singleton, ← hy] at hv hmax hfirst
  have hlt : argmaxFrom y 0 1 ys < K := by
    by_contra h
    rw [List.getElem?_eq_none (by simpa using h)] at hv
    cases hv
  have hget : ∀ j : Fin K, (List.ofFn (p.gamma x i))[(j : Nat)]? = some (p.gamma x i j) := by
    intro j; simp
  rw [hget ⟨_, hlt⟩] at hv
  cases hv
  refine ⟨⟨_, hlt⟩, by rw [hy]; rfl, fun j => hmax _ (by rw [List.mem_ofFn]; exact ⟨j, rfl⟩), fun j hj => ?_⟩
  exact hfirst j hj _ (hget j)

/-- C51. The mean log-likelihood of 0/1 data is never positive. -/
theorem c51_score_nonpos (hK : 0 < K) (p : Bmm K D) (hp : p.Valid) (x : Fin N → Fin D → ℝ) (hx : IsBinary x) :
    p.logL x ≤ 0 := by
  refine div_nonpos_of_nonpos_of_nonneg (Finset.sum_nonpos fun i _ => ?_) (Nat.cast_nonneg N)
  refine Real.log_nonpos (weight_sum_pos hK p x i).le ?_
  rw [← hp.2.1]
  refine Finset.sum_le_sum fun k _ => ?_
  rw [Real.exp_add, Real.exp_log (hp.1 k)]
  refine mul_le_of_le_one_right (hp.1 k).le ?_
  rw [Real.exp_le_one_iff]
  refine add_nonpos (Finset.sum_nonpos fun d _ => ?_) (Finset.sum_nonpos fun d _ => ?_)
  · have b := muPlace_bounds p.mu k d (hp.2.2 k d).1
    exact mul_nonpos_of_nonneg_of_nonpos (hx.mem i d).1 (Real.log_nonpos b.1.le (b.2.2.2 (hp.2.2 k d).2))
  · have b := muPlace_bounds (fun k d => 1 - p.mu k d) k d (by linarith [(hp.2.2 k d).2])
    exact mul_nonpos_of_nonneg_of_nonpos (by linarith [(hx.mem i d).2])
      (Real.log_nonpos b.1.le (b.2.2.2 (by linarith [(hp.2.2 k d).1])))

/-- The M-step maximises: what a component's weighted log-likelihood of one feature can lose by the floor. -/
theorem term_bound {a b m n m' n' c : ℝ} (ha : 0 ≤ a) (hb : 0 ≤ b) (hc : a + b = c) (hcp : 0 < c) (hm : 0 < m)
    (hn : 0 < n) (hm' : 0 < m') (hn' : 0 < n') (h1 : a / c ≤ m') (h2 : b / c ≤ n') :
    a * (Real.log m' - Real.log m) + b * (Real.log n' - Real.log n) ≥ -(c * (m + n - 1)) := by
  have key : ∀ {a m m' : ℝ}, 0 ≤ a → 0 < m → 0 < m' → a / c ≤ m' → a * (Real.log m - Real.log m') ≤ c * m - a := by
    intro a m m' ha hm hm' h
    rcases ha.eq_or_lt with rfl | ha
    · simp; positivity
    · rw [← Real.log_div hm.ne' hm'.ne']
      have h3 : Real.log (m / m') ≤ m / m' - 1 := Real.log_le_sub_one_of_pos (by positivity)
      have h4 : a * (m / m') ≤ c * m := by
        rw [div_le_iff₀ hcp] at h
        rw [← mul_div_assoc, div_le_iff₀ hm']
        nlinarith
      nlinarith
  have k1 := key ha hm hm' h1
  have k2 := key hb hn hn' h2
  nlinarith

/-- Jensen: the gain of the log-likelihood is at least the expected gain of the joint one. -/
theorem jensen (hK : 0 < K) (p q : Bmm K D) (x : Fin N → Fin D → ℝ) (i : Fin N) :
    ∑ k, p.gamma x i k * ((Real.log (q.pi k) + q.logBern x i k) - (Real.log (p.pi k) + p.logBern x i k)) ≤
      q.sampleLogL x i - p.sampleLogL x i := by
  have hr := c51_responsibilities hK p x i
  have hZ := weight_sum_pos hK p x i
  have hZ' := weight_sum_pos hK q x i
  have hj := strictConcaveOn_log_Ioi.concaveOn.le_map_sum (t := Finset.univ) (w := p.gamma x i)
    (p := fun k => Real.exp (Real.log (q.pi k) + q.logBern x i k) / Real.exp (Real.log (p.pi k) + p.logBern x i k))
    (fun k _ => (hr.1 k).le) hr.2 (fun k _ => Set.mem_Ioi.2 (by positivity))
  simp only [smul_eq_mul] at hj
  have e1 : ∑ k, p.gamma x i k *
      (Real.exp (Real.log (q.pi k) + q.logBern x i k) / Real.exp (Real.log (p.pi k) + p.logBern x i k)) =
      (∑ k, Real.exp (Real.log (q.pi k) + q.logBern x i k)) /
        ∑ k, Real.exp (Real.log (p.pi k) + p.logBern x i k) := by
    rw [Finset.sum_div]
    refine Finset.sum_congr rfl fun k _ => ?_
    rw [gamma_eq hK]
    have := (Real.exp_pos (Real.log (p.pi k) + p.logBern x i k)).ne'
    have hZn := hZ.ne'
    rw [div_mul_div_comm, mul_comm, mul_div_mul_right _ _ this]
  rw [e1, Real.log_div hZ'.ne' hZ.ne'] at hj
  refine le_trans (le_of_eq ?_) hj
  refine Finset.sum_congr rfl fun k _ => ?_
  rw [Real.log_div (Real.exp_pos _).ne' (Real.exp_pos _).ne', Real.log_exp, Real.log_exp]

/-- Gibbs: the new weights do not lose. -/
theorem gibbs (hK : 0 < K) (hN : 0 < N) (p : Bmm K D) (hp : p.Valid) (x : Fin N → Fin D → ℝ) :
    0 ≤ ∑ k, neff (p.gamma x) k * (Real.log (neff (p.gamma x) k / N) - Real.log (p.pi k)) := by
  have hN' : (0 : ℝ) < N := by exact_mod_cast hN
  have h : ∀ k, neff (p.gamma x) k - N * p.pi k ≤
      neff (p.gamma x) k * (Real.log (neff (p.gamma x) k / N) - Real.log (p.pi k)) := by
    intro k
    have hn := neff_pos hN p x k
    have hk := hp.1 k
    have hd : 0 < neff (p.gamma x) k / N := by positivity
    have h3 := Real.log_le_sub_one_of_pos (x := p.pi k / (neff (p.gamma x) k / N)) (by positivity)
    rw [Real.log_div hk.ne' hd.ne'] at h3
    have h4 : neff (p.gamma x) k * (p.pi k / (neff (p.gamma x) k / N)) = N * p.pi k := by
      field_simp
    nlinarith
  have hs := Finset.sum_le_sum fun k (_ : k ∈ (Finset.univ : Finset (Fin K))) => h k
  rw [Finset.sum_sub_distrib, neff_sum hK, ← Finset.mul_sum, hp.2.1] at hs
  linarith

/-- The expected gain of the joint log-likelihood, regrouped by component and feature. -/
theorem regroup (p q : Bmm K D) (x : Fin N → Fin D → ℝ) :
    ∑ i, ∑ k, p.gamma x i k * ((Real.log (q.pi k) + q.logBern x i k) - (Real.log (p.pi k) + p.logBern x i k)) =
      (∑ k, neff (p.gamma x) k * (Real.log (q.pi k) - Real.log (p.pi k))) +
      ∑ k, ∑ d, ((∑ i, p.gamma x i k * x i d) * (Real.log (muPlace q.mu k d) - Real.log (muPlace p.mu k d)) +
        (∑ i, p.gamma x i k * (1 - x i d)) * (Real.log (muPlace (fun k d => 1 - q.mu k d) k d) -
          Real.log (muPlace (fun k d => 1 - p.mu k d) k d))) := by
  rw [Finset.sum_comm, ← Finset.sum_add_distrib]
  refine Finset.sum_congr rfl fun k _ => ?_
  have h1 : neff (p.gamma x) k * (Real.log (q.pi k) - Real.log (p.pi k)) =
      ∑ i, p.gamma x i k * (Real.log (q.pi k) - Real.log (p.pi k)) := by rw [neff, Finset.sum_mul]
  have h2 : ∑ d, ((∑ i, p.gamma x i k * x i d) * (Real.log (muPlace q.mu k d) - Real.log (muPlace p.mu k d)) +
        (∑ i, p.gamma x i k * (1 - x i d)) * (Real.log (muPlace (fun k d => 1 - q.mu k d) k d) -
          Real.log (muPlace (fun k d => 1 - p.mu k d) k d))) =
      ∑ i, ∑ d, (p.gamma x i k * x i d * (Real.log (muPlace q.mu k d) - Real.log (muPlace p.mu k d)) +
        p.gamma x i k * (1 - x i d) * (Real.log (muPlace (fun k d => 1 - q.mu k d) k d) -
          Real.log (muPlace (fun k d => 1 - p.mu k d) k d))) := by
    rw [Finset.sum_comm]
    refine Finset.sum_congr rfl fun d _ => ?_
    rw [Finset.sum_mul, Finset.sum_mul, ← Finset.sum_add_distrib]
  rw [h1, h2, ← Finset.sum_add_distrib]
  refine Finset.sum_congr rfl fun i _ => ?_
  simp only [Bmm.logBern, saveSingle]
  have h3 : ∑ d, (p.gamma x i k * x i d * (Real.log (muPlace q.mu k d) - Real.log (muPlace p.mu k d)) +
        p.gamma x i k * (1 - x i d) * (Real.log (muPlace (fun k d => 1 - q.mu k d) k d) -
          Real.log (muPlace (fun k d => 1 - p.mu k d) k d))) =
      p.gamma x i k * ((∑ d, x i d * Real.log (muPlace q.mu k d)) - (∑ d, x i d * Real.log (muPlace p.mu k d)) +
        ((∑ d, (1 - x i d) * Real.log (muPlace (fun k d => 1 - q.mu k d) k d)) -
          ∑ d, (1 - x i d) * Real.log (muPlace (fun k d => 1 - p.mu k d) k d))) := by
    rw [← Finset.sum_sub_distrib, ← Finset.sum_sub_distrib, ← Finset.sum_add_distrib, Finset.mul_sum]
    refine Finset.sum_congr rfl fun d _ => ?_
    ring
  rw [h3]
  ring

/-- The mean at feature `d` of component `k` is outside the reach of the numerical floor, or the feature is constant
over the data (then the floored factor is raised to the power 0). -/
def FloorHarmless (p : Bmm K D) (x : Fin N → Fin D → ℝ) (k : Fin K) (d : Fin D) : Prop :=
  (muPlace p.mu k d = p.mu k d ∧ muPlace (fun k d => 1 - p.mu k d) k d = 1 - p.mu k d) ∨
  (∀ i, x i d = 0) ∨ ∀ i, x i d = 1

theorem feature_bound (hK : 0 < K) (hN : 0 < N) (p : Bmm K D) (hp : p.Valid) (x : Fin N → Fin D → ℝ)
    (hx : IsBinary x) (k : Fin K) (d : Fin D) :
    -(neff (p.gamma x) k * 2e-15) ≤
      (∑ i, p.gamma x i k * x i d) *
        (Real.log (muPlace (mStep (p.gamma x) x).mu k d) - Real.log (muPlace p.mu k d)) +
      (∑ i, p.gamma x i k * (1 - x i d)) * (Real.log (muPlace (fun k d => 1 - (mStep (p.gamma x) x).mu k d) k d) -
          Real.log (muPlace (fun k d => 1 - p.mu k d) k d)) ∧
    (FloorHarmless p x k d → 0 ≤
      (∑ i, p.gamma x i k * x i d) *
        (Real.log (muPlace (mStep (p.gamma x) x).mu k d) - Real.log (muPlace p.mu k d)) +
      (∑ i, p.gamma x i k * (1 - x i d)) * (Real.log (muPlace (fun k d => 1 - (mStep (p.gamma x) x).mu k d) k d) -
          Real.log (muPlace (fun k d => 1 - p.mu k d) k d))) := by
  have hn := neff_pos hN p x k
  have hv := c51_step_valid hK hN p x hx
  have ha : 0 ≤ ∑ i, p.gamma x i k * x i d :=
    Finset.sum_nonneg fun i _ => mul_nonneg (gamma_pos p x i k).le (hx.mem i d).1
  have hb : 0 ≤ ∑ i, p.gamma x i k * (1 - x i d) :=
    Finset.sum_nonneg fun i _ => mul_nonneg (gamma_pos p x i k).le (by linarith [(hx.mem i d).2])
  have hab : (∑ i, p.gamma x i k * x i d) + (∑ i, p.gamma x i k * (1 - x i d)) = neff (p.gamma x) k := by
    rw [← Finset.sum_add_distrib, neff]
    refine Finset.sum_congr rfl fun i _ => ?_
    ring
  have b1 := muPlace_bounds p.mu k d (hp.2.2 k d).1
  have b2 := muPlace_bounds (fun k d => 1 - p.mu k d) k d (by linarith [(hp.2.2 k d).2])
  have b3 := muPlace_bounds (mStep (p.gamma x) x).mu k d (hv.2.2 k d).1
  have b4 := muPlace_bounds (fun k d => 1 - (mStep (p.gamma x) x).mu k d) k d (by linarith [(hv.2.2 k d).2])
  have hmu : (mStep (p.gamma x) x).mu k d = (∑ i, p.gamma x i k * x i d) / neff (p.gamma x) k := rfl
  have hmu' : 1 - (mStep (p.gamma x) x).mu k d = (∑ i, p.gamma x i k * (1 - x i d)) / neff (p.gamma x) k := by
    rw [hmu, eq_div_iff hn.ne', sub_mul, div_mul_cancel₀ _ hn.ne']
    linarith
  have ht := term_bound ha hb hab hn b1.1 b2.1 b3.1 b4.1 (by rw [← hmu]; exact b3.2.1) (by rw [← hmu']; exact b4.2.1)
  refine ⟨?_, fun hf => ?_⟩
  · have : muPlace p.mu k d + muPlace (fun k d => 1 - p.mu k d) k d - 1 ≤ 2e-15 := by
      have c1 := b1.2.2.1
      have c2 := b2.2.2.1
      norm_num at c1 c2 ⊢
      linarith
    have := mul_le_mul_of_nonneg_left this hn.le
    linarith
  · rcases hf with ⟨h1, h2⟩ | h | h
    · rw [h1, h2] at ht ⊢
      linarith
    · have ha0 : ∑ i, p.gamma x i k * x i d = 0 := by simp [h]
      have hone : 1 ≤ muPlace (fun k d => 1 - (mStep (p.gamma x) x).mu k d) k d := by
        have := b4.2.1
        rw [hmu, ha0] at this
        simpa using this
      have l1 : 0 ≤ Real.log (muPlace (fun k d => 1 - (mStep (p.gamma x) x).mu k d) k d) := Real.log_nonneg hone
      have l2 : Real.log (muPlace (fun k d => 1 - p.mu k d) k d) ≤ 0 :=
        Real.log_nonpos b2.1.le (b2.2.2.2 (by linarith [(hp.2.2 k d).1]))
      rw [ha0, zero_mul, zero_add]
      exact mul_nonneg hb (by linarith)
    · have hb0 : ∑ i, p.gamma x i k * (1 - x i d) = 0 := by simp [h]
      have hone : 1 ≤ muPlace (mStep (p.gamma x) x).mu k d := by
        have := b3.2.1
        rw [hb0, zero_div] at hmu'
        linarith
      have l1 : 0 ≤ Real.log (muPlace (mStep (p.gamma x) x).mu k d) := Real.log_nonneg hone
      have l2 : Real.log (muPlace p.mu k d) ≤ 0 := Real.log_nonpos b1.1.le (b1.2.2.2 (hp.2.2 k d).2)
      rw [hb0, zero_mul, add_zero]
      exact mul_nonneg ha (by linarith)

theorem gain_bound (hK : 0 < K) (hN : 0 < N) (p : Bmm K D) (hp : p.Valid) (x : Fin N → Fin D → ℝ) (B : Fin K → ℝ)
    (hB : ∀ k d, B k ≤ (∑ i, p.gamma x i k * x i d) *
        (Real.log (muPlace (mStep (p.gamma x) x).mu k d) - Real.log (muPlace p.mu k d)) +
      (∑ i, p.gamma x i k * (1 - x i d)) * (Real.log (muPlace (fun k d => 1 - (mStep (p.gamma x) x).mu k d) k d) -
          Real.log (muPlace (fun k d => 1 - p.mu k d) k d))) :
    (∑ k, D * B k) / N ≤ (mStep (p.gamma x) x).logL x - p.logL x := by
  have hN' : (0 : ℝ) < N := by exact_mod_cast hN
  rw [Bmm.logL, Bmm.logL, ← sub_div, ← Finset.sum_sub_distrib]
  refine (div_le_div_iff_of_pos_right hN').2 ?_
  have hj := Finset.sum_le_sum fun i (_ : i ∈ (Finset.univ : Finset (Fin N))) =>
    jensen hK p (mStep (p.gamma x) x) x i
  rw [regroup] at hj
  have hg := gibbs hK hN p hp x
  have hk : ∑ k, D * B k ≤ ∑ k, ∑ d, ((∑ i, p.gamma x i k * x i d) *
        (Real.log (muPlace (mStep (p.gamma x) x).mu k d) - Real.log (muPlace p.mu k d)) +
      (∑ i, p.gamma x i k * (1 - x i d)) * (Real.log (muPlace (fun k d => 1 - (mStep (p.gamma x) x).mu k d) k d) -
          Real.log (muPlace (fun k d => 1 - p.mu k d) k d))) := by
    refine Finset.sum_le_sum fun k _ => ?_
    have := Finset.sum_le_sum fun d (_ : d ∈ (Finset.univ : Finset (Fin D))) => hB k d
    simpa using this
  have hpi : ∀ k, (mStep (p.gamma x) x).pi k = neff (p.gamma x) k / N := fun _ => rfl
  simp only [hpi] at hj
  linarith

/-- C52. One EM iteration never decreases the mean log-likelihood of 0/1 training data, when at the current parameters
the numerical floor is inactive wherever a feature is not constant over the data. -/
theorem c52_monotone (hK : 0 < K) (hN : 0 < N) (p : Bmm K D) (hp : p.Valid) (x : Fin N → Fin D → ℝ) (hx : IsBinary x)
    (hf : ∀ k d, FloorHarmless p x k d) : p.logL x ≤ (mStep (p.gamma x) x).logL x := by
  have := gain_bound hK hN p hp x (fun _ => 0) fun k d => (feature_bound hK hN p hp x hx k d).2 (hf k d)
  simp at this
  exact this

/-- C52. In any case one iteration loses at most 2e-15 per feature. -/
theorem c52_bounded_loss (hK : 0 < K) (hN : 0 < N) (p : Bmm K D) (hp : p.Valid) (x : Fin N → Fin D → ℝ)
    (hx : IsBinary x) : p.logL x - D * 2e-15 ≤ (mStep (p.gamma x) x).logL x := by
  have hN' : (0 : ℝ) < N := by exact_mod_cast hN
  have h := gain_bound hK hN p hp x (fun k => -(neff (p.gamma x) k * 2e-15)) fun k d =>
    (feature_bound hK hN p hp x hx k d).1
  have e : (∑ k, (D : ℝ) * -(neff (p.gamma x) k * 2e-15)) / N = -(D * 2e-15) := by
    have : ∀ k, (D : ℝ) * -(neff (p.gamma x) k * 2e-15) = -(D * 2e-15) * neff (p.gamma x) k := fun k => by ring
    simp only [this]
    rw [← Finset.mul_sum, neff_sum hK, mul_div_assoc, div_self hN'.ne', mul_one]
  rw [e] at h
  linarith

theorem emIter_succ (x : Fin N → Fin D → ℝ) (n : Nat) (p : Bmm K D) :
    emIter x (n + 1) p = mStep ((emIter x n p).gamma x) x := by
  induction n generalizing p with
  | zero => rfl
  | succ n ih =>
    show emIter x (n + 1) (mStep (p.gamma x) x) = _
    rw [ih]
    rfl

/-- C52. Fitting for one more iteration never gives a worse likelihood under the same condition on the parameters
reached so far, and at most 2e-15 per feature worse without it. -/
theorem c52_fit (hK : 0 < K) (hN : 0 < N) (x : Fin N → Fin D → ℝ) (hx : IsBinary x) (u : Fin K → Fin D → ℝ)
    (hu : ∀ k d, 1 / 4 ≤ u k d ∧ u k d ≤ 3 / 4) (n : Nat) :
    (Bmm.fit u n x).logL x - D * 2e-15 ≤ (Bmm.fit u (n + 1) x).logL x ∧
    ((∀ k d, FloorHarmless (Bmm.fit u n x) x k d) → (Bmm.fit u n x).logL x ≤ (Bmm.fit u (n + 1) x).logL x) := by
  obtain ⟨hv, he⟩ := c51_fit hK hN x hx u hu n
  have hs : Bmm.fit u (n + 1) x = mStep ((Bmm.fit u n x).gamma x) x := by
    rw [(c51_fit hK hN x hx u hu (n + 1)).2, emIter_succ, he]
  rw [hs]
  exact ⟨c52_bounded_loss hK hN _ hv x hx, c52_monotone hK hN _ hv x hx⟩

/-- The hypotheses of C51 and C52 are met from the start: before the first iteration, with a few features, the floor is
inactive. -/
example : ∀ (k : Fin 2) (d : Fin 2), FloorHarmless (Bmm.init (fun _ _ => 1 / 2)) (N := 3)
    (fun i d => if i.val = d.val then 1 else 0) k d := by
  classical
  intro k d
  left
  have h : ∀ (k d : Fin 2), (Bmm.init (K := 2) (D := 2) (fun _ _ => (1 / 2 : ℝ))).mu k d = 1 / 2 := by
    intro k d
    simp only [Bmm.init]
    norm_num
  have hc : ∀ mu : Fin 2 → Fin 2 → ℝ, (∀ k d, mu k d = 1 / 2) → muPlace mu k d = 1 / 2 := by
    intro mu hm
    simp only [muPlace, hm]
    norm_num
  rw [hc _ h, hc _ (fun k d => by rw [h]; norm_num), h]
  norm_num

end NR

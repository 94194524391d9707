import Verif.Props.C51_C52
import Mathlib.Algebra.BigOperators.Group.Finset.Sigma
/-
C144: what a fitted Bernoulli mixture says about the data, and what it does not depend on.
-/
namespace NR.C144
open Finset

variable {K D N M : Nat}

/-- The same mixture with its components in another order: component `k` of the result is component `τ k` of `p`. -/
def reordered (τ : Equiv.Perm (Fin K)) (p : Bmm K D) : Bmm K D := ⟨fun k => p.pi (τ k), fun k => p.mu (τ k)⟩

/-! ### Moments -/

theorem step_moments (hK : 0 < K) (hN : 0 < N) (p : Bmm K D) (x : Fin N → Fin D → ℝ) (d : Fin D) :
    ∑ k, (mStep (p.gamma x) x).pi k * (mStep (p.gamma x) x).mu k d = (∑ i, x i d) / N := by
  have h1 : ∀ k, (mStep (p.gamma x) x).pi k * (mStep (p.gamma x) x).mu k d = (∑ i, p.gamma x i k * x i d) / N := by
    intro k
    have := (neff_pos hN p x k).ne'
    simp only [mStep]
    field_simp
  rw [Finset.sum_congr rfl fun k _ => h1 k, ← Finset.sum_div, Finset.sum_comm]
  congr 1
  refine Finset.sum_congr rfl fun i _ => ?_
  rw [← Finset.sum_mul, (c51_responsibilities hK p x i).2, one_mul]

theorem fit_succ (hN : 0 < N) (x : Fin N → Fin D → ℝ) (u : Fin K → Fin D → ℝ) (n : Nat) :
    ∃ p : Bmm K D, Bmm.fit u (n + 1) x = mStep (p.gamma x) x := by
  rw [Bmm.fit, fitLoop_eq hN, emIter_succ]
  exact ⟨_, rfl⟩

/-- After at least one iteration the mixture gives every feature the mean it has in the data. -/
theorem c144_moments (hK : 0 < K) (hN : 0 < N) (x : Fin N → Fin D → ℝ) (u : Fin K → Fin D → ℝ) (n : Nat) (d : Fin D) :
    ∑ k, (Bmm.fit u (n + 1) x).pi k * (Bmm.fit u (n + 1) x).mu k d = (∑ i, x i d) / N := by
  obtain ⟨p, hp⟩ := fit_succ hN x u n
  rw [hp]
  exact step_moments hK hN p x d

/-- A single component has the means of the data, from the first iteration on. -/
theorem c144_single (hN : 0 < N) (x : Fin N → Fin D → ℝ) (u : Fin 1 → Fin D → ℝ) (n : Nat) :
    Bmm.fit u (n + 1) x = ⟨fun _ => 1, fun _ d => (∑ i, x i d) / N⟩ := by
  obtain ⟨p, hp⟩ := fit_succ hN x u n
  have hg : ∀ i k, p.gamma x i k = 1 := by
    intro i k
    have h := (c51_responsibilities Nat.one_pos p x i).2
    rw [Fin.sum_univ_one] at h
    rw [Subsingleton.elim k 0, h]
  have hN' : (N : ℝ) ≠ 0 := by exact_mod_cast hN.ne'
  rw [hp, mStep]
  simp [neff, hg, hN']

/-! ### What the result does not depend on -/

theorem sum_copies {f : Fin M → Fin N} {m : Nat} (hf : ∀ i, (univ.filter fun j => f j = i).card = m) (h : Fin N → ℝ) :
    ∑ j, h (f j) = m * ∑ i, h i := by
  rw [← Finset.sum_fiberwise univ f, Finset.mul_sum]
  refine Finset.sum_congr rfl fun i _ => ?_
  rw [Finset.sum_congr rfl (g := fun _ => h i) (fun j hj => by rw [(Finset.mem_filter.1 hj).2]), Finset.sum_const, hf, nsmul_eq_mul]

theorem card_copies {f : Fin M → Fin N} {m : Nat} (hf : ∀ i, (univ.filter fun j => f j = i).card = m) : (M : ℝ) = m * N := by
  have := sum_copies hf fun _ => 1
  simpa using this

theorem copies_loop {f : Fin M → Fin N} {m : Nat} (hm : 0 < m) (hf : ∀ i, (univ.filter fun j => f j = i).card = m)
    (x : Fin N → Fin D → ℝ) (n : Nat) (p : Bmm K D) : fitLoop (fun j => x (f j)) n p = fitLoop x n p := by
  have hm' : (m : ℝ) ≠ 0 := by exact_mod_cast hm.ne'
  have hM := card_copies hf
  induction n generalizing p with
  | zero => rfl
  | succ n ih =>
    have hn : ∀ k, neff (p.gamma fun j => x (f j)) k = m * neff (p.gamma x) k := fun k => sum_copies hf fun i => p.gamma x i k
    have hz : (M = 0 ∨ ∃ k, neff (p.gamma fun j => x (f j)) k = 0) ↔ (N = 0 ∨ ∃ k, neff (p.gamma x) k = 0) := by
      have h1 : M = 0 ↔ N = 0 := by
        rw [← Nat.cast_eq_zero (R := ℝ), hM, mul_eq_zero, Nat.cast_eq_zero (n := N)]
        simp [hm']
      simp only [h1, hn, mul_eq_zero, hm', false_or]
    have hs : mStep (p.gamma fun j => x (f j)) (fun j => x (f j)) = mStep (p.gamma x) x := by
      simp only [mStep, hn, hM]
      congr 1
      · funext k
        exact mul_div_mul_left _ _ hm'
      · funext k d
        rw [show (∑ j, p.gamma (fun j => x (f j)) j k * x (f j) d) = m * ∑ i, p.gamma x i k * x i d from
          sum_copies hf fun i => p.gamma x i k * x i d]
        exact mul_div_mul_left _ _ hm'
    simp only [fitLoop]
    by_cases h : N = 0 ∨ ∃ k, neff (p.gamma x) k = 0
    · rw [if_pos h, if_pos (hz.2 h)]
    · rw [if_neg h, if_neg (fun h' => h (hz.1 h')), hs, ih]

/-- Neither the order of the samples matters nor that each of them is given `m` times. -/
theorem c144_copies (f : Fin M → Fin N) (m : Nat) (hm : 0 < m) (hf : ∀ i, (univ.filter fun j => f j = i).card = m)
    (x : Fin N → Fin D → ℝ) (u : Fin K → Fin D → ℝ) (n : Nat) :
    Bmm.fit u n (fun j => x (f j)) = Bmm.fit u n x ∧
    (Bmm.fit u n x).logL (fun j => x (f j)) = (Bmm.fit u n x).logL x ∧
    ∀ j, (Bmm.fit u n x).predictRow (fun j => x (f j)) j = (Bmm.fit u n x).predictRow x (f j) := by
  refine ⟨copies_loop hm hf x n _, ?_, fun j => rfl⟩
  have hm' : (m : ℝ) ≠ 0 := by exact_mod_cast hm.ne'
  rw [Bmm.logL, Bmm.logL, card_copies hf]
  have := sum_copies hf fun i => (Bmm.fit u n x).sampleLogL x i
  rw [show (∑ i, (Bmm.fit u n x).sampleLogL (fun j => x (f j)) i) = m * ∑ i, (Bmm.fit u n x).sampleLogL x i from this]
  exact mul_div_mul_left _ _ hm'

theorem muPlace_reordered (τ : Equiv.Perm (Fin K)) (mu : Fin K → Fin D → ℝ) (k : Fin K) (d : Fin D) :
    muPlace (fun k => mu (τ k)) k d = muPlace mu (τ k) d := by
  classical
  have h : (∀ j, mu (τ j) d ≤ 1e-15) ↔ ∀ j, mu j d ≤ 1e-15 := τ.forall_congr_right (q := fun j => mu j d ≤ 1e-15)
  simp only [muPlace, h]

theorem logBern_reordered (τ : Equiv.Perm (Fin K)) (p : Bmm K D) (x : Fin N → Fin D → ℝ) (i : Fin N) (k : Fin K) :
    (reordered τ p).logBern x i k = p.logBern x i (τ k) := by
  simp only [Bmm.logBern, saveSingle, reordered]
  congr 1
  · exact Finset.sum_congr rfl fun d _ => by rw [muPlace_reordered]
  · exact Finset.sum_congr rfl fun d _ => by rw [muPlace_reordered τ (fun k d => 1 - p.mu k d)]

theorem sampleLogL_reordered (τ : Equiv.Perm (Fin K)) (p : Bmm K D) (x : Fin N → Fin D → ℝ) (i : Fin N) :
    (reordered τ p).sampleLogL x i = p.sampleLogL x i := by
  simp only [Bmm.sampleLogL, logBern_reordered]
  congr 1
  exact Equiv.sum_comp τ fun k => Real.exp (Real.log (p.pi k) + p.logBern x i k)

theorem gamma_reordered (τ : Equiv.Perm (Fin K)) (p : Bmm K D) (x : Fin N → Fin D → ℝ) (i : Fin N) (k : Fin K) :
    (reordered τ p).gamma x i k = p.gamma x i (τ k) := by
  simp only [Bmm.gamma, logBern_reordered, sampleLogL_reordered]
  rfl

theorem loop_reordered (τ : Equiv.Perm (Fin K)) (x : Fin N → Fin D → ℝ) (n : Nat) (p : Bmm K D) :
    fitLoop x n (reordered τ p) = reordered τ (fitLoop x n p) := by
  induction n generalizing p with
  | zero => rfl
  | succ n ih =>
    have hn : ∀ k, neff ((reordered τ p).gamma x) k = neff (p.gamma x) (τ k) := fun k => by
      simp only [neff, gamma_reordered]
    have hz : (∃ k, neff ((reordered τ p).gamma x) k = 0) ↔ ∃ k, neff (p.gamma x) k = 0 := by
      simp only [hn]
      exact τ.exists_congr_right (q := fun k => neff (p.gamma x) k = 0)
    have hs : mStep ((reordered τ p).gamma x) x = reordered τ (mStep (p.gamma x) x) := by
      simp only [mStep, hn, gamma_reordered]
      rfl
    simp only [fitLoop]
    by_cases h : N = 0 ∨ ∃ k, neff (p.gamma x) k = 0
    · rw [if_pos h, if_pos (by rwa [hz])]
    · rw [if_neg h, if_neg (by rwa [hz]), hs, ih]

/-- Random starting values in another order give the same components in that order, and the same scores. -/
theorem c144_names (τ : Equiv.Perm (Fin K)) (x : Fin N → Fin D → ℝ) (u : Fin K → Fin D → ℝ) (n : Nat) :
    Bmm.fit (fun k => u (τ k)) n x = reordered τ (Bmm.fit u n x) ∧
    ∀ {L : Nat} (y : Fin L → Fin D → ℝ), (Bmm.fit (fun k => u (τ k)) n x).logL y = (Bmm.fit u n x).logL y := by
  have h : Bmm.fit (fun k => u (τ k)) n x = reordered τ (Bmm.fit u n x) := loop_reordered τ x n (Bmm.init u)
  refine ⟨h, fun y => ?_⟩
  rw [h]
  simp only [Bmm.logL, sampleLogL_reordered]

/-! ### What fitting cannot do -/

theorem init_eq {u v : Fin K → Fin D → ℝ} (h : ∀ k d, u k d / ∑ e, u k e = v k d / ∑ e, v k e) : Bmm.init u = Bmm.init v := by
  simp only [Bmm.init, h]

/-- Components that start with proportional values never part: same weight, same means, and the later one is never predicted. -/
theorem c144_twins (x : Fin N → Fin D → ℝ) (u : Fin K → Fin D → ℝ) (n : Nat) (a b : Fin K) (hab : a < b)
    (hu : ∀ d, u a d / ∑ e, u a e = u b d / ∑ e, u b e) :
    (Bmm.fit u n x).pi a = (Bmm.fit u n x).pi b ∧ (∀ d, (Bmm.fit u n x).mu a d = (Bmm.fit u n x).mu b d) ∧
    ∀ {L : Nat} (y : Fin L → Fin D → ℝ) (i : Fin L), (Bmm.fit u n x).predictRow y i ≠ .ok b.val := by
  have hsym : Bmm.fit u n x = reordered (Equiv.swap a b) (Bmm.fit u n x) := by
    rw [← (c144_names (Equiv.swap a b) x u n).1, Bmm.fit, Bmm.fit]
    congr 1
    refine init_eq fun k d => ?_
    rcases eq_or_ne k a with rfl | ha
    · rw [Equiv.swap_apply_left]
      exact hu d
    · rcases eq_or_ne k b with rfl | hb
      · rw [Equiv.swap_apply_right]
        exact (hu d).symm
      · rw [Equiv.swap_apply_of_ne_of_ne ha hb]
  refine ⟨?_, fun d => ?_, fun {L} y i hp => ?_⟩
  · have := congrArg (fun p => p.pi a) hsym
    simpa [reordered] using this
  · have := congrArg (fun p => p.mu a d) hsym
    simpa [reordered] using this
  · have hK : 0 < K := a.pos
    obtain ⟨k, hk, _, hlt⟩ := c51_predict hK (Bmm.fit u n x) y i
    rw [hk] at hp
    have hkb : k = b := Fin.ext (by injection hp)
    have h1 := hlt a (hkb ▸ hab)
    have h2 : (Bmm.fit u n x).gamma y i a = (Bmm.fit u n x).gamma y i b := by
      have := gamma_reordered (Equiv.swap a b) (Bmm.fit u n x) y i a
      rw [← hsym, Equiv.swap_apply_left] at this
      exact this
    rw [h2, hkb] at h1
    exact lt_irrefl _ h1

/-- Data with one feature are never told apart: the starting values are divided by their sum over the features, so all components start
with mean one and stay the same. -/
theorem c144_one_feature_false (hK : 0 < K) (hN : 0 < N) (x : Fin N → Fin 1 → ℝ) (u : Fin K → Fin 1 → ℝ)
    (hu : ∀ k d, 1 / 4 ≤ u k d ∧ u k d ≤ 3 / 4) (n : Nat) :
    Bmm.fit u (n + 1) x = ⟨fun _ => 1 / K, fun _ _ => (∑ i, x i 0) / N⟩ ∧
    ∀ {L : Nat} (y : Fin L → Fin 1 → ℝ) (i : Fin L), (Bmm.fit u (n + 1) x).predictRow y i = .ok 0 := by
  have hK' : (K : ℝ) ≠ 0 := by exact_mod_cast hK.ne'
  have hN' : (N : ℝ) ≠ 0 := by exact_mod_cast hN.ne'
  have hprop : ∀ (a b : Fin K) (d : Fin 1), u a d / ∑ e, u a e = u b d / ∑ e, u b e := by
    intro a b d
    rw [Fin.sum_univ_one, Fin.sum_univ_one, Subsingleton.elim d 0, div_self, div_self]
    · have := (hu b 0).1
      linarith
    · have := (hu a 0).1
      linarith
  have hsame : ∀ a b : Fin K, (Bmm.fit u (n + 1) x).pi a = (Bmm.fit u (n + 1) x).pi b ∧
      ∀ d, (Bmm.fit u (n + 1) x).mu a d = (Bmm.fit u (n + 1) x).mu b d := by
    intro a b
    rcases lt_trichotomy a b with h | h | h
    · exact ⟨(c144_twins x u (n + 1) a b h (hprop a b)).1, (c144_twins x u (n + 1) a b h (hprop a b)).2.1⟩
    · rw [h]
      exact ⟨rfl, fun _ => rfl⟩
    · exact ⟨(c144_twins x u (n + 1) b a h (hprop b a)).1.symm, fun d => ((c144_twins x u (n + 1) b a h (hprop b a)).2.1 d).symm⟩
  have hsum : ∑ k, (Bmm.fit u (n + 1) x).pi k = 1 := by
    obtain ⟨p, hp⟩ := fit_succ hN x u n
    rw [hp]
    simp only [mStep]
    rw [← Finset.sum_div, neff_sum hK, div_self hN']
  have hpi : ∀ k, (Bmm.fit u (n + 1) x).pi k = 1 / K := by
    intro k
    rw [Finset.sum_congr rfl fun j _ => (hsame j k).1, Finset.sum_const, card_univ, Fintype.card_fin, nsmul_eq_mul] at hsum
    field_simp
    linarith
  have hmu : ∀ k d, (Bmm.fit u (n + 1) x).mu k d = (∑ i, x i 0) / N := by
    intro k d
    have hm := c144_moments hK hN x u n 0
    rw [Finset.sum_congr rfl fun j _ => by rw [(hsame j k).2 0], ← Finset.sum_mul, hsum, one_mul] at hm
    rw [Subsingleton.elim d 0, hm]
  refine ⟨?_, fun {L} y i => ?_⟩
  · rcases hfit : Bmm.fit u (n + 1) x with ⟨pi, mu⟩
    rw [hfit] at hpi hmu
    congr 1
    · exact funext hpi
    · exact funext fun k => funext fun d => hmu k d
  · obtain ⟨k, hk, _, _⟩ := c51_predict hK (Bmm.fit u (n + 1) x) y i
    rcases Nat.eq_zero_or_pos k.val with h0 | h0
    · rw [hk, h0]
    · exact absurd hk ((c144_twins x u (n + 1) ⟨0, hK⟩ k h0 (hprop _ _)).2.2 y i)

theorem shifted {p : Bmm K D} (hK : 0 < K) {L : Nat} {y y' : Fin L → Fin D → ℝ} {i : Fin L} {c : ℝ}
    (h : ∀ k, p.logBern y i k = p.logBern y' i k + c) (k : Fin K) : p.gamma y i k = p.gamma y' i k := by
  rw [gamma_eq hK, gamma_eq hK]
  have he : ∀ k, Real.exp (Real.log (p.pi k) + p.logBern y i k) = Real.exp (Real.log (p.pi k) + p.logBern y' i k) * Real.exp c := by
    intro k
    rw [h, ← add_assoc, Real.exp_add]
  simp only [he]
  rw [← Finset.sum_mul]
  exact mul_div_mul_right _ _ (Real.exp_pos c).ne'

/-- A feature with the same value in all data gets that value as its mean in every component, and plays no part when samples are
assigned to components, whatever value it has in them. -/
theorem c144_constant (hK : 0 < K) (hN : 0 < N) (x : Fin N → Fin D → ℝ) (u : Fin K → Fin D → ℝ) (n : Nat) (d : Fin D) (v : ℝ)
    (hv : ∀ i, x i d = v) :
    (∀ k, (Bmm.fit u (n + 1) x).mu k d = v) ∧
    ∀ {L : Nat} (y y' : Fin L → Fin D → ℝ) (_ : ∀ i e, e ≠ d → y i e = y' i e) (i : Fin L),
      (∀ k, (Bmm.fit u (n + 1) x).gamma y i k = (Bmm.fit u (n + 1) x).gamma y' i k) ∧
      (Bmm.fit u (n + 1) x).predictRow y i = (Bmm.fit u (n + 1) x).predictRow y' i := by
  have hmu : ∀ k, (Bmm.fit u (n + 1) x).mu k d = v := by
    intro k
    obtain ⟨p, hp⟩ := fit_succ hN x u n
    rw [hp]
    simp only [mStep, hv]
    rw [← Finset.sum_mul]
    exact mul_div_cancel_left₀ v (neff_pos hN p x k).ne'
  refine ⟨hmu, fun {L} y y' hy i => ?_⟩
  generalize Bmm.fit u (n + 1) x = p at *
  have hg : ∀ k, p.gamma y i k = p.gamma y' i k := by
    have k₀ : Fin K := ⟨0, hK⟩
    have hm : ∀ k, muPlace p.mu k d = muPlace p.mu k₀ d := fun k => by simp only [muPlace, hmu]
    have hm' : ∀ k, muPlace (fun k d => 1 - p.mu k d) k d = muPlace (fun k d => 1 - p.mu k d) k₀ d := fun k => by simp only [muPlace, hmu]
    refine shifted hK (c := (y i d - y' i d) * Real.log (muPlace p.mu k₀ d) +
      (y' i d - y i d) * Real.log (muPlace (fun k d => 1 - p.mu k d) k₀ d)) fun k => ?_
    have h1 : ∑ e ∈ univ.erase d, y i e * Real.log (muPlace p.mu k e) = ∑ e ∈ univ.erase d, y' i e * Real.log (muPlace p.mu k e) :=
      Finset.sum_congr rfl fun e he => by rw [hy i e (Finset.ne_of_mem_erase he)]
    have h2 : ∑ e ∈ univ.erase d, (1 - y i e) * Real.log (muPlace (fun k d => 1 - p.mu k d) k e) =
        ∑ e ∈ univ.erase d, (1 - y' i e) * Real.log (muPlace (fun k d => 1 - p.mu k d) k e) :=
      Finset.sum_congr rfl fun e he => by rw [hy i e (Finset.ne_of_mem_erase he)]
    simp only [Bmm.logBern, saveSingle]
    rw [← Finset.add_sum_erase univ _ (Finset.mem_univ d), ← Finset.add_sum_erase univ (fun e => (1 - y i e) * _) (Finset.mem_univ d),
      ← Finset.add_sum_erase univ (fun e => y' i e * _) (Finset.mem_univ d),
      ← Finset.add_sum_erase univ (fun e => (1 - y' i e) * _) (Finset.mem_univ d), h1, h2, hm, hm']
    ring
  refine ⟨hg, ?_⟩
  simp only [Bmm.predictRow]
  congr 2
  exact funext hg

/-! ### Examples -/

/-- Four samples of two features, two of them equal; starting values in range. -/
example : ∃ (x : Fin 4 → Fin 2 → ℝ) (u : Fin 2 → Fin 2 → ℝ), IsBinary x ∧ (∀ k d, 1 / 4 ≤ u k d ∧ u k d ≤ 3 / 4) ∧ u 0 ≠ u 1 ∧
    ∑ k, (Bmm.fit u 3 x).pi k * (Bmm.fit u 3 x).mu k 0 = 3 / 4 ∧ ∀ k, (Bmm.fit u 3 x).mu k 1 = 1 := by
  refine ⟨fun i d => if i = 0 ∧ d = 0 then 0 else 1, fun k d => if k = d then 3 / 4 else 1 / 4, fun i d => ?_, fun k d => ?_, ?_, ?_, ?_⟩
  · dsimp only
    split <;> simp
  · dsimp only
    split <;> norm_num
  · intro h
    have := congrFun h 0
    norm_num at this
  · rw [c144_moments (by norm_num) (by norm_num)]
    norm_num [Fin.sum_univ_four]
    rw [if_neg (by decide), if_neg (by decide)]
    norm_num
  · exact (c144_constant (by norm_num) (by norm_num) _ _ 2 1 1 (fun i => by simp)).1

/-- Samples given twice, in another order. -/
example : ∃ f : Fin 4 → Fin 2, ∀ i, (univ.filter fun j => f j = i).card = 2 :=
  ⟨fun j => if j = 0 ∨ j = 3 then 1 else 0, by decide⟩

/-- Different starting values in proportion: the components stay the same although the data consist of two kinds of samples. -/
example : ∃ u : Fin 2 → Fin 2 → ℝ, (∀ k d, 1 / 4 ≤ u k d ∧ u k d ≤ 3 / 4) ∧ u 0 ≠ u 1 ∧
    ∀ n d, (Bmm.fit u n fun i d : Fin 2 => if i = d then 1 else 0).mu 0 d = (Bmm.fit u n fun i d : Fin 2 => if i = d then 1 else 0).mu 1 d := by
  refine ⟨fun k _ => if k = 0 then 1 / 4 else 3 / 4, fun k d => ?_, ?_, fun n d => ?_⟩
  · dsimp only
    split <;> norm_num
  · intro h
    have := congrFun h 0
    norm_num at this
  · exact (c144_twins _ _ n 0 1 (by decide) (fun d => by norm_num [Fin.sum_univ_two])).2.1 d

end NR.C144

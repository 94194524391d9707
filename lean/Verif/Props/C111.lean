import Verif.Model.BayesStudy
import Verif.Props.C94
import Mathlib.Tactic.FieldSimp
import Mathlib.Tactic.Positivity
/-
C111: the MATLAB versions of the study of noisy bits.
-/
namespace NR.C111
open Spec

/-- C111: the maximum-likelihood study in MATLAB stores for every point the two mean squared errors of the Python study (C94) for
the same draws. -/
theorem c111_mle (p1 f : ℝ) (trials : List (List (Bool × Bool))) (r : StudyRow) (h : studyRow p1 f trials = .ok r) :
    mleCell p1 f trials = ⟨r.ignorantMse, r.mse⟩ := by
  have hc : ∀ x : ℝ, min (max x 0) 1 = npClip 0 1 x := fun x => by rw [npClip, min_comm, max_comm]
  unfold studyRow at h
  simp only [bind, Except.bind] at h
  split at h
  · cases h
  · split at h
    · cases h
    · injection h with h
      subst h
      simp only [mleCell, cellOf, hc]

/-! ### The counts -/

/-- The counts stay whole and positive, and after a draw there are at least three. -/
theorem shrink_pos (c : BetaCounts) (ha : 1 ≤ c.a) (hb : 1 ≤ c.b) (h3 : 3 ≤ c.a + c.b) :
    1 ≤ (shrinkCounts c).a ∧ 1 ≤ (shrinkCounts c).b ∧ 3 ≤ (shrinkCounts c).a + (shrinkCounts c).b ∧
      (shrinkCounts c).a * c.b = (shrinkCounts c).b * c.a ∧
      (bayesMax < c.a + c.b → 26 ≤ (shrinkCounts c).a + (shrinkCounts c).b) ∧
      (c.a + c.b ≤ bayesMax → shrinkCounts c = c) := by
  unfold shrinkCounts
  by_cases hmax : c.a + c.b > bayesMax
  · rw [if_pos hmax]
    have hg : 0 < Nat.gcd c.a c.b := Nat.gcd_pos_of_pos_left _ ha
    have h1 : 1 ≤ c.a / Nat.gcd c.a c.b := Nat.div_pos (Nat.le_of_dvd ha (Nat.gcd_dvd_left _ _)) hg
    have h2 : 1 ≤ c.b / Nat.gcd c.a c.b := Nat.div_pos (Nat.le_of_dvd hb (Nat.gcd_dvd_right _ _)) hg
    have hr : c.a / Nat.gcd c.a c.b * c.b = c.b / Nat.gcd c.a c.b * c.a := by
      rw [Nat.div_mul_right_comm (Nat.gcd_dvd_left _ _), Nat.div_mul_right_comm (Nat.gcd_dvd_right _ _), mul_comm]
    simp only
    generalize c.a / Nat.gcd c.a c.b = a' at h1 hr ⊢
    generalize c.b / Nat.gcd c.a c.b = b' at h2 hr ⊢
    by_cases hmin : a' + b' < bayesMin
    · rw [if_pos hmin]
      unfold bayesMin at hmin ⊢
      simp only
      have hm : 1 ≤ 50 / (a' + b') := Nat.div_pos (by omega) (by omega)
      have h26 : 26 ≤ (a' + b') * (50 / (a' + b')) := by
        have e := Nat.div_add_mod 50 (a' + b')
        have l := Nat.mod_lt 50 (show a' + b' > 0 by omega)
        by_cases h25 : a' + b' ≤ 25
        · generalize (a' + b') * (50 / (a' + b')) = q at e ⊢
          omega
        · have : (a' + b') * 1 ≤ (a' + b') * (50 / (a' + b')) := Nat.mul_le_mul_left _ hm
          omega
      rw [add_mul] at h26
      refine ⟨Nat.mul_pos h1 hm, Nat.mul_pos h2 hm, by omega, ?_, fun _ => h26, fun h => by omega⟩
      rw [mul_right_comm, hr, mul_right_comm]
    · rw [if_neg hmin]
      unfold bayesMin at hmin
      exact ⟨h1, h2, by simp only; omega, hr, fun _ => by simp only; omega, fun h => by omega⟩
  · rw [if_neg hmax]
    exact ⟨ha, hb, h3, mul_comm _ _, fun h => absurd h hmax, fun _ => rfl⟩

theorem trial_eq (c : BetaCounts) (d : Bool × Bool) : bayesTrial c d =
    shrinkCounts (if (if d.2 then !d.1 else d.1) = true then ⟨c.a + 1, c.b⟩ else ⟨c.a, c.b + 1⟩) := by
  rcases d with ⟨x, w⟩
  cases x <;> cases w <;> rfl

theorem trial_pos (c : BetaCounts) (ha : 1 ≤ c.a) (hb : 1 ≤ c.b) (d : Bool × Bool) :
    1 ≤ (bayesTrial c d).a ∧ 1 ≤ (bayesTrial c d).b ∧ 3 ≤ (bayesTrial c d).a + (bayesTrial c d).b := by
  rw [trial_eq]
  by_cases hd : (if d.2 then !d.1 else d.1) = true
  · rw [if_pos hd]
    have := shrink_pos ⟨c.a + 1, c.b⟩ (by simp) hb (by simp only; omega)
    exact ⟨this.1, this.2.1, this.2.2.1⟩
  · rw [if_neg hd]
    have := shrink_pos ⟨c.a, c.b + 1⟩ ha (by simp) (by simp only; omega)
    exact ⟨this.1, this.2.1, this.2.2.1⟩

theorem estimate_range (c : BetaCounts) (ha : 1 ≤ c.a) (hb : 1 ≤ c.b) (h3 : 3 ≤ c.a + c.b) :
    0 ≤ bayesEstimate c ∧ bayesEstimate c ≤ 1 := by
  have ha' : (1 : ℝ) ≤ c.a := by exact_mod_cast ha
  have hb' : (1 : ℝ) ≤ c.b := by exact_mod_cast hb
  have h3' : (3 : ℝ) ≤ c.a + c.b := by exact_mod_cast h3
  unfold bayesEstimate
  constructor
  · apply div_nonneg <;> linarith
  · apply div_le_one_of_le₀ <;> linarith

theorem trials_range (ds : List (Bool × Bool)) : ∀ (c : BetaCounts), 1 ≤ c.a → 1 ≤ c.b →
    1 ≤ (bayesTrials c ds).1.a ∧ 1 ≤ (bayesTrials c ds).1.b ∧ (bayesTrials c ds).2.length = ds.length ∧
      ∀ v ∈ (bayesTrials c ds).2, 0 ≤ v ∧ v ≤ 1 := by
  induction ds with
  | nil => intro c ha hb; exact ⟨ha, hb, rfl, by simp [bayesTrials]⟩
  | cons d ds ih =>
    intro c ha hb
    obtain ⟨h1, h2, h3⟩ := trial_pos c ha hb d
    obtain ⟨i1, i2, i3, i4⟩ := ih _ h1 h2
    refine ⟨i1, i2, by simp [bayesTrials, i3], ?_⟩
    intro v hv
    rw [bayesTrials, List.mem_cons] at hv
    rcases hv with rfl | hv
    · exact estimate_range _ h1 h2 h3
    · exact i4 v hv

theorem meanR_range (l : List ℝ) (h : ∀ x ∈ l, 0 ≤ x ∧ x ≤ 1) : 0 ≤ meanR l ∧ meanR l ≤ 1 := by
  have hs : 0 ≤ l.sum ∧ l.sum ≤ l.length := by
    induction l with
    | nil => simp
    | cons x l ih =>
      have hx := h x (by simp)
      have := ih fun y hy => h y (by simp [hy])
      rw [List.sum_cons, List.length_cons]
      push_cast
      constructor <;> linarith
  unfold meanR
  exact ⟨div_nonneg hs.1 (by positivity), div_le_one_of_le₀ hs.2 (by positivity)⟩

/-- C111: whatever was drawn before, every estimate of the Bayesian study lies between 0 and 1 (the denominator is never zero),
there is one for each draw, and both mean squared errors stored for a point lie between 0 and 1. -/
theorem c111_range (before ds : List (Bool × Bool)) (p1 f : ℝ) (hp : 0 ≤ p1 ∧ p1 ≤ 1) (c : BetaCounts)
    (hc : c = (bayesTrials ⟨1, 1⟩ before).1) :
    (bayesTrials c ds).2.length = ds.length ∧ (∀ v ∈ (bayesTrials c ds).2, 0 ≤ v ∧ v ≤ 1) ∧
    (∀ k, 3 ≤ (bayesTrials c (ds.take (k + 1))).1.a + (bayesTrials c (ds.take (k + 1))).1.b ∨ ds = []) ∧
    (0 ≤ (cellOf p1 f (bayesTrials c ds).2).ignorant ∧ (cellOf p1 f (bayesTrials c ds).2).ignorant ≤ 1) ∧
    (0 ≤ (cellOf p1 f (bayesTrials c ds).2).corrected ∧ (cellOf p1 f (bayesTrials c ds).2).corrected ≤ 1) := by
  obtain ⟨c1, c2, -, -⟩ := trials_range before ⟨1, 1⟩ (by simp) (by simp)
  rw [← hc] at c1 c2
  obtain ⟨-, -, hl, hv⟩ := trials_range ds c c1 c2
  have sq : ∀ x y : ℝ, 0 ≤ x → x ≤ 1 → 0 ≤ y → y ≤ 1 → 0 ≤ |x - y| ^ 2 ∧ |x - y| ^ 2 ≤ 1 := by
    intro x y h1 h2 h3 h4
    have : |x - y| ≤ 1 := abs_le.2 ⟨by linarith, by linarith⟩
    exact ⟨by positivity, pow_le_one₀ (abs_nonneg _) this⟩
  refine ⟨hl, hv, ?_, ?_, ?_⟩
  · intro k
    by_cases hds : ds = []
    · exact Or.inr hds
    · left
      have key : ∀ (l : List (Bool × Bool)) (c : BetaCounts), 1 ≤ c.a → 1 ≤ c.b → l ≠ [] →
          3 ≤ (bayesTrials c l).1.a + (bayesTrials c l).1.b := by
        intro l
        induction l with
        | nil => intro _ _ _ h; exact absurd rfl h
        | cons d l ih =>
          intro c ha hb _
          obtain ⟨h1, h2, h3⟩ := trial_pos c ha hb d
          by_cases hl : l = []
          · subst hl; exact h3
          · exact ih _ h1 h2 hl
      refine key _ c c1 c2 ?_
      cases ds with
      | nil => exact absurd rfl hds
      | cons d ds => simp
  · apply meanR_range
    intro x hx
    simp only [List.map_map, List.mem_map, Function.comp] at hx
    obtain ⟨v, hv1, rfl⟩ := hx
    exact sq _ _ (hv v hv1).1 (hv v hv1).2 hp.1 hp.2
  · apply meanR_range
    intro x hx
    simp only [List.map_map, List.mem_map, Function.comp] at hx
    obtain ⟨v, hv1, rfl⟩ := hx
    exact sq _ _ (le_min (le_max_right _ _) zero_le_one) (min_le_right _ _) hp.1 hp.2

theorem trials_append (a b : List (Bool × Bool)) : ∀ c : BetaCounts,
    (bayesTrials c (a ++ b)).1 = (bayesTrials (bayesTrials c a).1 b).1 := by
  induction a with
  | nil => intro c; rfl
  | cons d a ih => intro c; exact ih _

/-- C111: the study. The numbers of point `k` are the errors of the estimates from its draws, with the counts that the draws of
all points before it have left. -/
theorem c111_study (points : List (ℝ × ℝ × List (Bool × Bool))) (k : Nat) (p1 f : ℝ) (ds : List (Bool × Bool))
    (hk : points[k]? = some (p1, f, ds)) : (bayesStudy points)[k]? =
      some (cellOf p1 f (bayesTrials (bayesTrials ⟨1, 1⟩ ((points.take k).flatMap (·.2.2))).1 ds).2) := by
  have key : ∀ (points : List (ℝ × ℝ × List (Bool × Bool))) (k : Nat) (c : BetaCounts), points[k]? = some (p1, f, ds) →
      (bayesCells c points)[k]? = some (cellOf p1 f (bayesTrials (bayesTrials c ((points.take k).flatMap (·.2.2))).1 ds).2) := by
    intro points
    induction points with
    | nil => intro k c h; simp at h
    | cons x rest ih =>
      intro k c h
      rcases x with ⟨q1, g, es⟩
      cases k with
      | zero =>
        simp only [List.getElem?_cons_zero, Option.some.injEq, Prod.mk.injEq] at h
        obtain ⟨rfl, rfl, rfl⟩ := h
        rfl
      | succ k =>
        rw [List.getElem?_cons_succ] at h
        have := ih k (bayesTrials c es).1 h
        rw [List.take_succ_cons, List.flatMap_cons, trials_append]
        exact this
  exact key points k ⟨1, 1⟩ hk

/-- C111: up to 73 draws from the start the estimate is the share of ones among the bits seen. -/
theorem c111_share (ds : List (Bool × Bool)) (_ : ds ≠ []) (h : ds.length ≤ 73) :
    bayesEstimate (bayesTrials ⟨1, 1⟩ ds).1 = ((seenBits ds).count true : ℝ) / ds.length := by
  have key : ∀ (ds : List (Bool × Bool)) (c : BetaCounts), 1 ≤ c.a → 1 ≤ c.b → c.a + c.b + ds.length ≤ 75 →
      (bayesTrials c ds).1 = ⟨c.a + (seenBits ds).count true, c.b + (seenBits ds).count false⟩ := by
    intro ds
    induction ds with
    | nil => intro c _ _ _; rfl
    | cons d ds ih =>
      intro c ha hb hl
      rw [List.length_cons] at hl
      rw [bayesTrials]
      simp only
      rw [trial_eq]
      by_cases hd : (if d.2 then !d.1 else d.1) = true
      · rw [if_pos hd, (shrink_pos ⟨c.a + 1, c.b⟩ (by simp) hb (by simp only; omega)).2.2.2.2.2
          (by simp only [bayesMax]; omega), ih ⟨c.a + 1, c.b⟩ (by simp) hb (by simp only; omega)]
        simp only [seenBits, List.map_cons, hd, List.count_cons_self]
        simp
        omega
      · rw [if_neg hd, (shrink_pos ⟨c.a, c.b + 1⟩ ha (by simp) (by simp only; omega)).2.2.2.2.2
          (by simp only [bayesMax]; omega), ih ⟨c.a, c.b + 1⟩ ha (by simp) (by simp only; omega)]
        rw [Bool.not_eq_true] at hd
        simp only [seenBits, List.map_cons, hd, List.count_cons_self]
        simp
        omega
  have hlen : (seenBits ds).count true + (seenBits ds).count false = ds.length := by
    have : (seenBits ds).length = ds.length := by simp [seenBits]
    rw [← this]
    induction seenBits ds with
    | nil => rfl
    | cons b l ih => cases b <;> simp <;> omega
  rw [key ds ⟨1, 1⟩ (by simp) (by simp) (by simp only; omega)]
  unfold bayesEstimate
  have : (ds.length : ℝ) = (seenBits ds).count true + (seenBits ds).count false := by rw [← hlen]; push_cast; ring
  rw [this]
  push_cast
  congr 1 <;> ring

/-- C111: shrinking keeps the ratio of the counts and leaves at least 26 of them; it happens only beyond 75 counts. -/
theorem c111_shrink (before : List (Bool × Bool)) (c : BetaCounts) (hc : c = (bayesTrials ⟨1, 1⟩ before).1) (d : Bool × Bool)
    (grown : BetaCounts) (hg : grown = if (if d.2 then !d.1 else d.1) = true then ⟨c.a + 1, c.b⟩ else ⟨c.a, c.b + 1⟩) :
    (bayesTrial c d).a * grown.b = (bayesTrial c d).b * grown.a ∧
    (75 < grown.a + grown.b → 26 ≤ (bayesTrial c d).a + (bayesTrial c d).b) ∧
    (grown.a + grown.b ≤ 75 → bayesTrial c d = grown) := by
  obtain ⟨c1, c2, -, -⟩ := trials_range before ⟨1, 1⟩ (by simp) (by simp)
  rw [← hc] at c1 c2
  rw [trial_eq, ← hg]
  have hs : 1 ≤ grown.a ∧ 1 ≤ grown.b ∧ 3 ≤ grown.a + grown.b := by
    rw [hg]
    by_cases hd : (if d.2 then !d.1 else d.1) = true
    · rw [if_pos hd]; simp only; omega
    · rw [if_neg hd]; simp only; omega
  obtain ⟨-, -, -, h1, h2, h3⟩ := shrink_pos grown hs.1 hs.2.1 hs.2.2
  exact ⟨h1, h2, h3⟩

/-! ### What fails -/

theorem shrink_coprime (c : BetaCounts) (h : Nat.gcd c.a c.b = 1) : shrinkCounts c = c := by
  unfold shrinkCounts
  by_cases hmax : c.a + c.b > bayesMax
  · rw [if_pos hmax, h]
    simp only [Nat.div_one]
    rw [if_neg]
    unfold bayesMin bayesMax at *
    omega
  · rw [if_neg hmax]

theorem ones_run (k : Nat) : ∀ c : BetaCounts, c.b = 1 →
    (bayesTrials c (List.replicate k (true, false))).1 = ⟨c.a + k, 1⟩ := by
  induction k with
  | zero => intro c h; cases c; simp_all [bayesTrials]
  | succ k ih =>
    intro c h
    rw [List.replicate_succ, bayesTrials]
    simp only
    have : bayesTrial c (true, false) = ⟨c.a + 1, 1⟩ := by
      rw [trial_eq]
      simp only [h]
      exact shrink_coprime _ (by simp)
    rw [this, ih _ rfl]
    simp
    omega

theorem zeros_run (k : Nat) : ∀ c : BetaCounts, c.a = 1 →
    (bayesTrials c (List.replicate k (false, false))).1 = ⟨1, c.b + k⟩ := by
  induction k with
  | zero => intro c h; cases c; simp_all [bayesTrials]
  | succ k ih =>
    intro c h
    rw [List.replicate_succ, bayesTrials]
    simp only
    have : bayesTrial c (false, false) = ⟨1, c.b + 1⟩ := by
      rw [trial_eq]
      simp only [h]
      exact shrink_coprime _ (by simp)
    rw [this, ih _ rfl]
    simp
    omega

/-- C111, refuted: the counts are not kept to a window. `max_size` is 75, but counts with no common factor are not shrunk: for
every bound there are draws after which there are more counts. -/
theorem c111_window_false (bound : Nat) : ∃ ds : List (Bool × Bool),
    bound < (bayesTrials ⟨1, 1⟩ ds).1.a + (bayesTrials ⟨1, 1⟩ ds).1.b := by
  refine ⟨List.replicate bound (false, false), ?_⟩
  rw [zeros_run bound ⟨1, 1⟩ rfl]
  simp only
  omega

/-- C111, refuted: the result of a point does not depend only on the point. The counts are not reset between the points: for
every draws of the second point there are two series of 50000 draws (the number of trials) for the first after which the
estimates of the second differ. -/
theorem c111_points_false (ds : List (Bool × Bool)) (h : ds ≠ []) : ∃ first first' : List (Bool × Bool),
    first.length = 50000 ∧ first'.length = 50000 ∧
    (bayesTrials (bayesTrials ⟨1, 1⟩ first).1 ds).2 ≠ (bayesTrials (bayesTrials ⟨1, 1⟩ first').1 ds).2 := by
  refine ⟨List.replicate 50000 (true, false), List.replicate 50000 (false, false), List.length_replicate,
    List.length_replicate, ?_⟩
  rw [ones_run 50000 ⟨1, 1⟩ rfl, zeros_run 50000 ⟨1, 1⟩ rfl]
  cases ds with
  | nil => exact absurd rfl h
  | cons d ds =>
    intro heq
    rw [bayesTrials, bayesTrials] at heq
    simp only [List.cons.injEq] at heq
    have h1 := heq.1
    rw [trial_eq, trial_eq] at h1
    by_cases hd : (if d.2 then !d.1 else d.1) = true
    · rw [if_pos hd, if_pos hd, shrink_coprime _ (by decide +kernel), shrink_coprime _ (by decide +kernel)] at h1
      norm_num [bayesEstimate] at h1
    · rw [if_neg hd, if_neg hd, shrink_coprime _ (by decide +kernel), shrink_coprime _ (by decide +kernel)] at h1
      norm_num [bayesEstimate] at h1

/-! ### Cases -/

/-- A one, a one flipped by noise, a zero flipped by noise: two ones seen of three. -/
example : bayesEstimate (bayesTrials ⟨1, 1⟩ [(true, false), (true, true), (false, true)]).1 = 2 / 3 := by
  rw [c111_share _ (by simp) (by simp)]
  norm_num [seenBits]

/-- Shrinking with a common factor: 38 + 38 becomes 25 + 25. -/
example : shrinkCounts ⟨38, 38⟩ = ⟨25, 25⟩ := by decide

end NR.C111

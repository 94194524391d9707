import Verif.Model.Dude
import Verif.Spec.Dude
import Verif.Props.C25_C26
import Mathlib.Tactic.Linarith
import Mathlib.Tactic.FieldSimp
import Mathlib.Tactic.Ring
import Mathlib.Tactic.Positivity
import Mathlib.Tactic.FinCases
/-
C41: online context counts. C42: hard decisions. C43: soft decisions. C44: two-sided context counts.
-/
namespace NR
open Spec

/-! ### Counting in a dictionary -/

/-- The counts stored for a key, zeros if there is none. -/
def counts {κ : Type} [DecidableEq κ] (A : Nat) (d : List (κ × List Nat)) (key : κ) : List Nat :=
  (dictGet d key).getD (List.replicate A 0)

theorem bump_lookup {κ : Type} [DecidableEq κ] (A : Nat) (d : List (κ × List Nat)) (key : κ) (o : Nat) (key' : κ) :
    dictGet (bump A d key o) key' = if key' = key then some ((counts A d key).modify o (· + 1)) else dictGet d key' := by
  unfold bump dictGet
  rw [lookup_dictSet]
  rfl

theorem counts_bump {κ : Type} [DecidableEq κ] (A : Nat) (d : List (κ × List Nat)) (key : κ) (o : Nat) (key' : κ) :
    counts A (bump A d key o) key' = if key' = key then (counts A d key).modify o (· + 1) else counts A d key' := by
  unfold counts
  rw [bump_lookup]
  split <;> rfl

theorem modify_range (A o : Nat) (f g : Nat → Nat) (h : ∀ a, a < A → g a = f a + if a = o then 1 else 0) :
    ((List.range A).map f).modify o (· + 1) = (List.range A).map g := by
  apply List.ext_getElem
  · simp
  · intro i h1 h2
    have hi : i < A := by simpa using h2
    rw [List.getElem_modify]
    simp only [List.getElem_map, List.getElem_range]
    rw [h i hi]
    by_cases he : o = i
    · simp [he]
    · simp [he, Ne.symm he]

/-! ### C41 -/

/-- The counts after the symbols `done`: how often `a` followed `key`. -/
def seen (k : Nat) (done : List Int) (key : List Int) (a : Nat) : Nat :=
  (List.range done.length).countP fun j => decide (k ≤ j ∧ before done k j = key ∧ done[j]? = some (a : Int))

theorem before_append (done : List Int) (o : Int) (k j : Nat) (hk : k ≤ j) (hj : j ≤ done.length) :
    before (done ++ [o]) k j = before done k j := by
  unfold before
  rw [List.drop_append_of_le_length (by omega), List.take_append_of_le_length (by simp; omega)]

theorem seen_append (k : Nat) (done : List Int) (o : Int) (key : List Int) (a : Nat) (hk : k ≤ done.length) :
    seen k (done ++ [o]) key a = seen k done key a + if before done k done.length = key ∧ o = (a : Int) then 1 else 0 := by
  unfold seen
  rw [List.length_append, List.length_singleton, List.range_succ, List.countP_append]
  congr 1
  · apply List.countP_congr
    intro j hj
    have hj := List.mem_range.1 hj
    by_cases hkj : k ≤ j
    · rw [before_append done o k j hkj hj.le, List.getElem?_append_left hj]
    · simp [hkj]
  · rw [List.countP_singleton, before_append done o k _ hk le_rfl]
    simp [hk]

theorem seen_short (k : Nat) (done : List Int) (key : List Int) (a : Nat) (hk : done.length ≤ k) : seen k done key a = 0 := by
  unfold seen
  rw [List.countP_eq_zero]
  intro j hj
  have hj := List.mem_range.1 hj
  simp
  omega

/-- What the state knows after the symbols `done`. -/
structure OnlineInv (k A : Nat) (st : OnlineDude) (done : List Int) : Prop where
  hk : st.k = k
  hA : st.A = A
  last : st.last = if done.length < k then done else before done k done.length
  cnt : ∀ key, counts A st.contexts key = (List.range A).map (seen k done key)

theorem onlineInv_step {ρ : Type} (D : Decide ρ) {k A : Nat} (hk1 : 1 ≤ k) {st : OnlineDude} {done : List Int}
    (hi : OnlineInv k A st done) (o : Int) (h0 : 0 ≤ o) (hA : o < A) :
    ∃ st', st.denoiseSample D o = .ok ((if done.length < k then D.echo o else
        D.dec ((List.range A).map (seen k (done ++ [o]) (before done k done.length))) o), st') ∧
      OnlineInv k A st' (done ++ [o]) := by
  obtain ⟨rfl, rfl, hlast, hcnt⟩ := hi
  unfold OnlineDude.denoiseSample
  rw [if_neg (by simp [h0, hA])]
  by_cases hlt : done.length < st.k
  · rw [if_pos hlt] at hlast
    rw [hlast, if_pos hlt, if_pos hlt]
    refine ⟨_, rfl, rfl, rfl, ?_, ?_⟩
    · simp only [List.length_append, List.length_singleton]
      split
      · rfl
      · unfold before
        have : done.length + 1 - st.k = 0 := by omega
        rw [this]
        simp only [List.drop_zero]
        rw [List.take_of_length_le (by simp; omega)]
    · intro key
      rw [hcnt key]
      apply List.map_congr_left
      intro a _
      rw [seen_short _ _ _ _ (by omega), seen_short _ _ _ _ (by simp; omega)]
  · rw [if_neg hlt] at hlast
    have hll : st.last.length = st.k := by
      rw [hlast]; unfold before; simp; omega
    rw [if_neg (by omega), if_neg hlt]
    have hnat : ∀ a : Nat, (o = (a : Int)) ↔ a = o.toNat := by intro a; omega
    have hb : ∀ key, counts st.A (bump st.A st.contexts st.last o.toNat) key = (List.range st.A).map (seen st.k (done ++ [o]) key) := by
      intro key
      rw [counts_bump]
      split
      · rename_i he
        subst he
        rw [hcnt]
        apply modify_range
        intro a _
        rw [seen_append _ _ _ _ _ (by omega), hlast]
        simp [hnat]
      · rename_i he
        rw [hcnt]
        apply List.map_congr_left
        intro a _
        rw [seen_append _ _ _ _ _ (by omega)]
        rw [hlast] at he
        rw [if_neg (fun hc => he hc.1.symm)]
        rfl
    refine ⟨{ st with contexts := bump st.A st.contexts st.last o.toNat, last := st.last.drop 1 ++ [o] }, ?_, rfl, rfl, ?_, hb⟩
    · have hsome : dictGet (bump st.A st.contexts st.last o.toNat) st.last = some (counts st.A (bump st.A st.contexts st.last o.toNat) st.last) := by
        unfold counts
        rw [bump_lookup, if_pos rfl]
        rfl
      simp only [hsome, hb, Option.getD_some]
      rw [hlast]
    · simp only [List.length_append, List.length_singleton]
      rw [if_neg (by omega), hlast]
      unfold before
      have e : done.length + 1 - st.k = done.length - st.k + 1 := by omega
      rw [e, List.drop_append_of_le_length (by omega), List.take_of_length_le (l := List.drop (done.length - st.k) done) (by simp; omega),
        List.drop_drop, List.take_of_length_le (by simp; omega)]

theorem followCount_seen (k : Nat) (done rest : List Int) (o : Int) (a : Nat) (hk : k ≤ done.length) :
    followCount (done ++ o :: rest) k done.length a = seen k (done ++ [o]) (before done k done.length) a := by
  unfold followCount seen
  rw [List.length_append, List.length_singleton]
  have hbe : ∀ j, k ≤ j → j ≤ done.length → before (done ++ o :: rest) k j = before (done ++ [o]) k j := by
    intro j h1 h2
    unfold before
    rw [List.drop_append_of_le_length (by omega), List.drop_append_of_le_length (by omega),
      List.take_append_of_le_length (by simp; omega), List.take_append_of_le_length (by simp; omega)]
  apply List.countP_congr
  intro j hj
  have hj := List.mem_range.1 hj
  by_cases hkj : k ≤ j
  · rw [hbe j hkj (by omega), hbe _ hk le_rfl, before_append done o k done.length hk le_rfl]
    have : (done ++ o :: rest)[j]? = (done ++ [o])[j]? := by
      by_cases h : j < done.length
      · rw [List.getElem?_append_left h, List.getElem?_append_left h]
      · have : j = done.length := by omega
        subst this
        simp
    rw [this]
  · simp [hkj]

/-- C41: a fresh denoiser with `k ≥ 1` fed with symbols in range echoes the first `k` symbols and decides about each later one
using exactly the numbers of times each symbol has followed the `k` symbols preceding it, up to and including itself. -/
theorem c41_counts {ρ : Type} (D : Decide ρ) (k A : Nat) (hk : 1 ≤ k) (obs : List Int) (hobs : ∀ o ∈ obs, 0 ≤ o ∧ o < A) :
    ∃ rs st, OnlineDude.denoiseSequence D { k := k, A := A } obs = .ok (rs, st) ∧ rs.length = obs.length ∧
      ∀ i, (hi : i < obs.length) → rs[i]? = some (if i < k then D.echo obs[i] else
        D.dec ((List.range A).map (followCount obs k i)) obs[i]) := by
  have key : ∀ (os done : List Int) (st : OnlineDude), OnlineInv k A st done → done ++ os = obs →
      ∃ rs st', OnlineDude.denoiseSequence D st os = .ok (rs, st') ∧ rs.length = os.length ∧
        ∀ i, (hi : i < os.length) → rs[i]? = some (if done.length + i < k then D.echo os[i] else
          D.dec ((List.range A).map (followCount obs k (done.length + i))) os[i]) := by
    intro os
    induction os with
    | nil => intro done st _ _; exact ⟨[], st, rfl, rfl, by simp⟩
    | cons o os ih =>
      intro done st hi ho
      have hmem : o ∈ obs := by rw [← ho]; simp
      obtain ⟨st1, h1, h2⟩ := onlineInv_step D hk hi o (hobs o hmem).1 (hobs o hmem).2
      obtain ⟨rs, st2, h3, h4, h5⟩ := ih (done ++ [o]) st1 h2 (by simpa using ho)
      refine ⟨(if done.length < k then D.echo o else
        D.dec ((List.range A).map (seen k (done ++ [o]) (before done k done.length))) o) :: rs, st2,
        by simp only [OnlineDude.denoiseSequence, h1, h3, bind, Except.bind], by simp [h4], ?_⟩
      intro i hil
      cases i with
      | zero =>
        simp only [List.getElem?_cons_zero, Nat.add_zero, List.getElem_cons_zero, Option.some.injEq]
        by_cases hlt : done.length < k
        · rw [if_pos hlt, if_pos hlt]
        · rw [if_neg hlt, if_neg hlt]
          congr 1
          apply List.map_congr_left
          intro a _
          rw [← ho, followCount_seen k done os o a (by omega)]
      | succ i =>
        have := h5 i (by simpa using hil)
        simp only [List.length_append, List.length_singleton] at this
        simp only [List.getElem?_cons_succ, List.getElem_cons_succ, this]
        have e : done.length + 1 + i = done.length + (i + 1) := by omega
        rw [e]
  have := key obs [] { k := k, A := A } ⟨rfl, rfl, ?_, ?_⟩ rfl
  · simpa using this
  · simp; omega
  · intro key
    simp only [counts, dictGet, List.lookup_nil, Option.getD_none]
    apply List.ext_getElem
    · simp
    · intro i h1 h2; simp [seen]

/-- C41: starting with a given context of length `k` is starting after the symbols of that context. -/
theorem c41_initial_context {ρ : Type} (D : Decide ρ) (k A : Nat) (ctx : List Int) (hctx : ctx.length = k)
    (hin : ∀ o ∈ ctx, 0 ≤ o ∧ o < A) :
    ∃ rs st, OnlineDude.denoiseSequence D { k := k, A := A } ctx = .ok (rs, st) ∧
      OnlineDude.initialContext { k := k, A := A } ctx = .ok st ∧
      ∀ c : List Int, c.length ≠ k → Raises (OnlineDude.initialContext { k := k, A := A } c) .valueError := by
  have key : ∀ (os done : List Int), done ++ os = ctx →
      ∃ rs, OnlineDude.denoiseSequence D { k := k, A := A, last := done } os = .ok (rs, { k := k, A := A, last := ctx }) := by
    intro os
    induction os with
    | nil =>
      intro done hd
      refine ⟨[], ?_⟩
      rw [← hd]
      simp [OnlineDude.denoiseSequence]
    | cons o os ih =>
      intro done hd
      obtain ⟨rs, h⟩ := ih (done ++ [o]) (by simpa using hd)
      have ho := hin o (by rw [← hd]; simp)
      have hl : done.length < k := by rw [← hctx, ← hd]; simp
      refine ⟨D.echo o :: rs, ?_⟩
      simp only [OnlineDude.denoiseSequence, OnlineDude.denoiseSample, bind, Except.bind]
      rw [if_neg (by simp [ho])]
      simp only [hl, if_true]
      rw [h]
  obtain ⟨rs, h⟩ := key ctx [] rfl
  refine ⟨rs, _, h, ?_, ?_⟩
  · unfold OnlineDude.initialContext
    rw [if_neg (by simpa using hctx)]
  · intro c hc
    unfold OnlineDude.initialContext
    rw [if_pos hc]

/-- C41: denoising in pieces is denoising the whole. -/
theorem c41_pieces {ρ : Type} (D : Decide ρ) (st : OnlineDude) (xs ys : List Int) :
    st.denoiseSequence D (xs ++ ys) = (do
      let (r1, st) ← st.denoiseSequence D xs
      let (r2, st) ← st.denoiseSequence D ys
      .ok (r1 ++ r2, st)) := by
  induction xs generalizing st with
  | nil =>
    simp only [List.nil_append, OnlineDude.denoiseSequence, bind, Except.bind]
    split <;> simp_all
  | cons x xs ih =>
    simp only [List.cons_append, OnlineDude.denoiseSequence, bind, Except.bind]
    cases st.denoiseSample D x with
    | error e => rfl
    | ok r =>
      obtain ⟨r, st1⟩ := r
      simp only [ih, bind, Except.bind]
      cases st1.denoiseSequence D xs with
      | error e => rfl
      | ok q =>
        obtain ⟨q, st2⟩ := q
        simp only
        cases st2.denoiseSequence D ys with
        | error e => rfl
        | ok q => rfl

/-- C41: symbols out of range raise. -/
theorem c41_out_of_range {ρ : Type} (D : Decide ρ) (st : OnlineDude) (o : Int) :
    (¬ (0 ≤ o ∧ o < st.A) → Raises (st.denoiseSample D o) .valueError) ∧
    ((0 ≤ o ∧ o < st.A) → Returns (st.denoiseSample D o)) := by
  unfold OnlineDude.denoiseSample
  constructor
  · intro h; rw [if_pos h]
  · intro h
    rw [if_neg (by simp [h])]
    split <;> exact ⟨_, rfl⟩

/-- C41: `reset` restores the initial state, whatever happened before. -/
theorem c41_reset {ρ : Type} (D : Decide ρ) (k A : Nat) (obs : List Int) (rs : List ρ) (st : OnlineDude)
    (h : OnlineDude.denoiseSequence D { k := k, A := A } obs = .ok (rs, st)) : st.reset = { k := k, A := A } := by
  have key : ∀ (os : List Int) (s s' : OnlineDude) (r : List ρ), s.denoiseSequence D os = .ok (r, s') → s'.k = s.k ∧ s'.A = s.A := by
    intro os
    induction os with
    | nil =>
      intro s s' r h
      simp only [OnlineDude.denoiseSequence, Except.ok.injEq, Prod.mk.injEq] at h
      rw [← h.2]; exact ⟨rfl, rfl⟩
    | cons o os ih =>
      intro s s' r h
      simp only [OnlineDude.denoiseSequence, bind, Except.bind] at h
      cases h1 : s.denoiseSample D o with
      | error e => rw [h1] at h; cases h
      | ok q =>
        obtain ⟨q, s1⟩ := q
        rw [h1] at h
        simp only at h
        cases h2 : s1.denoiseSequence D os with
        | error e => rw [h2] at h; cases h
        | ok p =>
          obtain ⟨p, s2⟩ := p
          rw [h2] at h
          simp only [Except.ok.injEq, Prod.mk.injEq] at h
          obtain ⟨i1, i2⟩ := ih s1 s2 p h2
          have : s1.k = s.k ∧ s1.A = s.A := by
            unfold OnlineDude.denoiseSample at h1
            split at h1
            · cases h1
            · split at h1
              · simp only [Except.ok.injEq, Prod.mk.injEq] at h1
                rw [← h1.2]; exact ⟨rfl, rfl⟩
              · simp only [Except.ok.injEq, Prod.mk.injEq] at h1
                rw [← h1.2]; exact ⟨rfl, rfl⟩
          rw [← h.2]
          exact ⟨i1.trans this.1, i2.trans this.2⟩
  obtain ⟨h1, h2⟩ := key obs _ st rs h
  unfold OnlineDude.reset
  simp only at h1 h2
  rw [h1, h2]

/-- A decision function that returns its arguments. -/
def showCounts : Decide (List Nat × Int) := ⟨fun o => ([], o), fun m o => (m, o)⟩

/-- C41: with `k = 0` only the first symbol is counted without context; afterwards the context has length one. -/
theorem c41_k_zero {ρ : Type} (D : Decide ρ) (A : Nat) (o : Int) (h : 0 ≤ o ∧ o < A) :
    ∃ r st, OnlineDude.denoiseSample D { k := 0, A := A } o = .ok (r, st) ∧ st.last = [o] ∧
      ∀ (st' : OnlineDude) (x : Int), st'.k = 0 → st'.A = A → st'.last.length = 1 → 0 ≤ x → x < A →
        ∃ r' st'', st'.denoiseSample D x = .ok (r', st'') ∧ st''.last = [x] := by
  refine ⟨_, _, by unfold OnlineDude.denoiseSample; rw [if_neg (by simp [h]), if_neg (by simp)], rfl, ?_⟩
  intro st' x hk hA hl h0 hx
  refine ⟨_, _, by unfold OnlineDude.denoiseSample; rw [if_neg (by simp [h0, hA, hx]), if_neg (by omega)], ?_⟩
  obtain ⟨y, hy⟩ := List.length_eq_one_iff.1 hl
  simp [hy]

example : (OnlineDude.denoiseSequence showCounts { k := 1, A := 2 } [0, 1, 0, 1, 0, 0]).map (·.1) =
    .ok [([], 0), ([0, 1], 1), ([1, 0], 0), ([0, 2], 1), ([2, 0], 0), ([1, 2], 0)] := by decide +kernel

/-! ### C42 and C43 -/

theorem bsc_inv (f : ℝ) (hf : f ≠ 1 / 2) : (bsc f)⁻¹ = !![(1 - f) / (1 - 2 * f), -f / (1 - 2 * f); -f / (1 - 2 * f), (1 - f) / (1 - 2 * f)] := by
  have hd : (1 : ℝ) - 2 * f ≠ 0 := by
    intro h
    apply hf
    linarith
  have e1 : (1 - f) * ((1 - f) / (1 - 2 * f)) + f * (-f / (1 - 2 * f)) = 1 := by
    rw [← mul_div_assoc, ← mul_div_assoc, ← add_div, div_eq_one_iff_eq hd]; ring
  have e2 : (1 - f) * (-f / (1 - 2 * f)) + f * ((1 - f) / (1 - 2 * f)) = 0 := by ring
  have e3 : f * ((1 - f) / (1 - 2 * f)) + (1 - f) * (-f / (1 - 2 * f)) = 0 := by ring
  have e4 : f * (-f / (1 - 2 * f)) + (1 - f) * ((1 - f) / (1 - 2 * f)) = 1 := by rw [add_comm]; exact e1
  apply Matrix.inv_eq_right_inv
  ext i j
  rw [Matrix.mul_apply, Fin.sum_univ_two]
  fin_cases i <;> fin_cases j
  · simpa [bsc] using e1
  · simpa [bsc] using e2
  · simpa [bsc] using e3
  · simpa [bsc] using e4

theorem bsc_vec (f : ℝ) (hf : f ≠ 1 / 2) (m : List Nat) :
    Matrix.vecMul (countVec 2 m) (bsc f)⁻¹ 0 = ((1 - f) * (m.getD 0 0 : Nat) - f * (m.getD 1 0 : Nat)) / (1 - 2 * f) ∧
    Matrix.vecMul (countVec 2 m) (bsc f)⁻¹ 1 = ((1 - f) * (m.getD 1 0 : Nat) - f * (m.getD 0 0 : Nat)) / (1 - 2 * f) := by
  rw [bsc_inv f hf]
  constructor <;> simp [Matrix.vecMul, dotProduct, Fin.sum_univ_two, countVec] <;> ring

theorem argmin_two (a b : ℝ) : argmin [a, b] = 0 ∧ a ≤ b ∨ argmin [a, b] = 1 ∧ b < a := by
  classical
  unfold argmin
  simp only [List.zipIdx_cons, List.zipIdx_nil, List.foldl_cons, List.foldl_nil, List.headD_cons, lt_irrefl, if_false]
  by_cases h : b < a
  · right; simp [h]
  · left; simp [h]; linarith

/-- C42: for the binary symmetric channel with flip probability `f < 1/2` and Hamming loss, an observed 0 is kept exactly when
`m(0) ((1-f)² + f²) ≥ 2 f (1-f) m(1)`, an observed 1 exactly when `m(1) ((1-f)² + f²) > 2 f (1-f) m(0)`; otherwise the other
symbol is returned. -/
theorem c42_threshold (f : ℝ) (hf : f < 1 / 2) (m0 m1 : Nat) (loss : Matrix (Fin 2) (Fin 2) ℝ) (hl : loss = hammingLoss) :
    (hardDecision (bsc f) loss [m0, m1] 0).1 =
      (open Classical in if 2 * f * (1 - f) * m1 ≤ m0 * ((1 - f) ^ 2 + f ^ 2) then 0 else 1) ∧
    (hardDecision (bsc f) loss [m0, m1] 1).1 =
      (open Classical in if 2 * f * (1 - f) * m0 < m1 * ((1 - f) ^ 2 + f ^ 2) then 1 else 0) := by
  classical
  subst hl
  have hne : f ≠ 1 / 2 := by linarith
  have hd : 0 < 1 - 2 * f := by linarith
  obtain ⟨v0, v1⟩ := bsc_vec f hne [m0, m1]
  simp only [List.getD_cons_zero, List.getD_cons_succ] at v0 v1
  have hcost : ∀ p : Fin 2 → ℝ, List.ofFn (Matrix.vecMul p hammingLoss) = [p 1, p 0] := by
    intro p
    have h0 : Matrix.vecMul p hammingLoss 0 = p 1 := by
      rw [Matrix.vecMul, dotProduct, Fin.sum_univ_two]
      simp [hammingLoss]
    have h1 : Matrix.vecMul p hammingLoss 1 = p 0 := by
      rw [Matrix.vecMul, dotProduct, Fin.sum_univ_two]
      simp [hammingLoss]
    rw [List.ofFn_succ, List.ofFn_succ, List.ofFn_zero, h0]
    exact congrArg (fun x => [p 1, x]) h1
  constructor
  · unfold hardDecision
    simp only [hcost, v0, v1]
    have c00 : bsc f 0 0 = 1 - f := rfl
    have c10 : bsc f 1 0 = f := rfl
    rw [c00, c10]
    have e : ((1 - f) * (m1 : ℝ) - f * m0) / (1 - 2 * f) * f ≤ ((1 - f) * (m0 : ℝ) - f * m1) / (1 - 2 * f) * (1 - f) ↔
        2 * f * (1 - f) * m1 ≤ m0 * ((1 - f) ^ 2 + f ^ 2) := by
      rw [div_mul_eq_mul_div, div_mul_eq_mul_div, div_le_div_iff_of_pos_right hd]
      constructor <;> intro h <;> nlinarith
    rcases argmin_two (((1 - f) * (m1 : ℝ) - f * m0) / (1 - 2 * f) * f) (((1 - f) * (m0 : ℝ) - f * m1) / (1 - 2 * f) * (1 - f)) with
      ⟨h1, h2⟩ | ⟨h1, h2⟩
    · rw [h1, if_pos (e.1 h2)]; rfl
    · rw [h1, if_neg (fun h => absurd (e.2 h) (not_le.2 h2))]; rfl
  · unfold hardDecision
    simp only [hcost, v0, v1]
    have c01 : bsc f 0 1 = f := rfl
    have c11 : bsc f 1 1 = 1 - f := rfl
    rw [c01, c11]
    have e : ((1 - f) * (m0 : ℝ) - f * m1) / (1 - 2 * f) * f < ((1 - f) * (m1 : ℝ) - f * m0) / (1 - 2 * f) * (1 - f) ↔
        2 * f * (1 - f) * m0 < m1 * ((1 - f) ^ 2 + f ^ 2) := by
      rw [div_mul_eq_mul_div, div_mul_eq_mul_div, div_lt_div_iff_of_pos_right hd]
      constructor <;> intro h <;> nlinarith
    rcases argmin_two (((1 - f) * (m1 : ℝ) - f * m0) / (1 - 2 * f) * (1 - f)) (((1 - f) * (m0 : ℝ) - f * m1) / (1 - 2 * f) * f) with
      ⟨h1, h2⟩ | ⟨h1, h2⟩
    · rw [h1, if_neg (fun h => absurd (e.2 h) (not_lt.2 h2))]; rfl
    · rw [h1, if_pos (e.1 h2)]; rfl

/-- C42: without noise the hard decision is the observed symbol, if its count includes the observation. -/
theorem c42_no_noise (m0 m1 : Nat) :
    (hardDecision (bsc 0) hammingLoss [m0, m1] 0).1 = 0 ∧ (0 < m1 → (hardDecision (bsc 0) hammingLoss [m0, m1] 1).1 = 1) := by
  classical
  obtain ⟨h0, h1⟩ := c42_threshold 0 (by norm_num) m0 m1 hammingLoss rfl
  constructor
  · rw [h0, if_pos]
    simp
  · intro h
    rw [h1, if_pos]
    have : (0 : ℝ) < m1 := by exact_mod_cast h
    simpa using h

/-- With `f = 0.1`, a 0 seen once against twenty 1s is flipped, a 0 seen once against two is kept. -/
example : (hardDecision (bsc 0.1) hammingLoss [1, 20] 0).1 = 1 ∧ (hardDecision (bsc 0.1) hammingLoss [1, 2] 0).1 = 0 := by
  classical
  rw [(c42_threshold 0.1 (by norm_num) 1 20 hammingLoss rfl).1, (c42_threshold 0.1 (by norm_num) 1 2 hammingLoss rfl).1,
    if_neg (by norm_num), if_pos (by norm_num)]
  exact ⟨rfl, rfl⟩

/-- C43: for `0 ≤ f < 1/2` and counts with at least one observation, the smoothed posterior is a probability vector. -/
theorem c43_prob_vector (f : ℝ) (h0 : 0 ≤ f) (hf : f < 1 / 2) (m0 m1 : Nat) (hm : 0 < m0 + m1) (z : Fin 2) (loss : Matrix (Fin 2) (Fin 2) ℝ) :
    let p := (softDecision (bsc f) loss [m0, m1] z).1
    0 ≤ p 0 ∧ 0 ≤ p 1 ∧ p 0 + p 1 = 1 := by
  classical
  have hne : f ≠ 1 / 2 := by linarith
  have hd : 0 < 1 - 2 * f := by linarith
  obtain ⟨v0, v1⟩ := bsc_vec f hne [m0, m1]
  simp only [List.getD_cons_zero, List.getD_cons_succ] at v0 v1
  have htot : Matrix.vecMul (countVec 2 [m0, m1]) (bsc f)⁻¹ 0 + Matrix.vecMul (countVec 2 [m0, m1]) (bsc f)⁻¹ 1 = m0 + m1 := by
    rw [v0, v1, ← add_div, div_eq_iff hd.ne']; ring
  have hm1 : (1 : ℝ) ≤ m0 + m1 := by exact_mod_cast hm
  have hz : 0 ≤ bsc f 0 z ∧ 0 ≤ bsc f 1 z ∧ 0 < bsc f 0 z + bsc f 1 z := by
    fin_cases z <;> simp [bsc] <;> (try constructor) <;> linarith
  have key : ∀ a b c d : ℝ, 0 < a → 0 < b → 0 ≤ c → 0 ≤ d → 0 < c + d →
      0 ≤ a * c / (a * c + b * d) ∧ 0 ≤ b * d / (a * c + b * d) ∧ a * c / (a * c + b * d) + b * d / (a * c + b * d) = 1 := by
    intro a b c d ha hb hc hd hcd
    have hs : 0 < a * c + b * d := by
      rcases hc.eq_or_lt with rfl | hc'
      · have : 0 < b * d := mul_pos hb (by linarith)
        linarith
      · have : 0 < a * c := mul_pos ha hc'
        have : 0 ≤ b * d := mul_nonneg hb.le hd
        linarith
    refine ⟨by positivity, by positivity, ?_⟩
    rw [← add_div, div_self hs.ne']
  generalize hv : Matrix.vecMul (countVec 2 [m0, m1]) (bsc f)⁻¹ = v at htot
  simp only [softDecision, smoothPosterior, hv]
  by_cases c0 : v 0 < 1
  · rw [if_pos c0]
    have := key 1 (v 1) (bsc f 0 z) (bsc f 1 z) one_pos (by linarith) hz.1 hz.2.1 hz.2.2
    simpa using this
  · rw [if_neg c0]
    by_cases c1 : v 1 < 1
    · rw [if_pos c1]
      have := key (v 0) 1 (bsc f 0 z) (bsc f 1 z) (by linarith) one_pos hz.1 hz.2.1 hz.2.2
      simpa using this
    · rw [if_neg c1]
      exact key (v 0) (v 1) (bsc f 0 z) (bsc f 1 z) (by linarith) (by linarith) hz.1 hz.2.1 hz.2.2

/-- C43: the smoothing replaces an entry below one by one and leaves the other entry as it was, so the total count is not
preserved: what is normalised is `max(1, ·)` of the channel-corrected counts, times the channel probabilities. -/
theorem c43_smoothing (f : ℝ) (h0 : 0 ≤ f) (hf : f < 1 / 2) (m0 m1 : Nat) (hm : 0 < m0 + m1) (z : Fin 2) :
    let c0 := max 1 (((1 - f) * m0 - f * m1) / (1 - 2 * f)) * (bsc f) 0 z
    let c1 := max 1 (((1 - f) * m1 - f * m0) / (1 - 2 * f)) * (bsc f) 1 z
    smoothPosterior (bsc f) [m0, m1] z 0 = c0 / (c0 + c1) ∧ smoothPosterior (bsc f) [m0, m1] z 1 = c1 / (c0 + c1) := by
  classical
  have hne : f ≠ 1 / 2 := by linarith
  have hd : 0 < 1 - 2 * f := by linarith
  obtain ⟨v0, v1⟩ := bsc_vec f hne [m0, m1]
  simp only [List.getD_cons_zero, List.getD_cons_succ] at v0 v1
  have hbig : Matrix.vecMul (countVec 2 [m0, m1]) (bsc f)⁻¹ 0 < 1 → 1 ≤ Matrix.vecMul (countVec 2 [m0, m1]) (bsc f)⁻¹ 1 := by
    rw [v0, v1, div_lt_one hd, one_le_div hd]
    intro hlt
    rcases Nat.lt_or_ge (m0 + m1) 2 with h2 | h2
    · have hcase : (m0 = 0 ∧ m1 = 1) ∨ (m0 = 1 ∧ m1 = 0) := by omega
      rcases hcase with ⟨rfl, rfl⟩ | ⟨rfl, rfl⟩
      · push_cast; linarith
      · push_cast at hlt; linarith
    · have h2' : (2 : ℝ) ≤ m0 + m1 := by exact_mod_cast h2
      nlinarith
  rw [← v0, ← v1]
  generalize hv : Matrix.vecMul (countVec 2 [m0, m1]) (bsc f)⁻¹ = v at hbig
  simp only [smoothPosterior, hv]
  by_cases c0 : v 0 < 1
  · simp only [if_pos c0]
    rw [max_eq_left c0.le, max_eq_right (hbig c0)]
    constructor <;> simp
  · simp only [if_neg c0]
    rw [max_eq_right (not_lt.1 c0)]
    by_cases c1 : v 1 < 1
    · simp only [if_pos c1]
      rw [max_eq_left c1.le]
      constructor <;> simp
    · simp only [if_neg c1]
      rw [max_eq_right (not_lt.1 c1)]
      exact ⟨rfl, rfl⟩

/-! ### C44 -/

theorem bump_fold_some {κ : Type} [DecidableEq κ] (A : Nat) (key : Nat → κ) (sym : Nat → Nat) (l : List Nat) (d : List (κ × List Nat)) (x : κ)
    (h : (∃ i ∈ l, key i = x) ∨ ∃ v, dictGet d x = some v) :
    dictGet (l.foldl (fun d i => bump A d (key i) (sym i)) d) x = some (counts A (l.foldl (fun d i => bump A d (key i) (sym i)) d) x) := by
  induction l generalizing d with
  | nil =>
    rcases h with ⟨i, hi, _⟩ | ⟨v, hv⟩
    · simp at hi
    · simp [counts, hv]
  | cons a l ih =>
    rw [List.foldl_cons]
    apply ih
    rcases h with ⟨i, hi, hk⟩ | ⟨v, hv⟩
    · rcases List.mem_cons.1 hi with rfl | hi
      · right; rw [bump_lookup, if_pos hk.symm]; exact ⟨_, rfl⟩
      · left; exact ⟨i, hi, hk⟩
    · right
      rw [bump_lookup]
      split
      · exact ⟨_, rfl⟩
      · exact ⟨v, hv⟩

theorem bump_fold_counts {κ : Type} [DecidableEq κ] (A : Nat) (key : Nat → κ) (sym : Nat → Nat) (l : List Nat) (d : List (κ × List Nat))
    (f : κ → Nat → Nat) (hd : ∀ x, counts A d x = (List.range A).map (f x)) (x : κ) :
    counts A (l.foldl (fun d i => bump A d (key i) (sym i)) d) x =
      (List.range A).map fun a => f x a + l.countP fun j => decide (key j = x ∧ sym j = a) := by
  induction l generalizing d f with
  | nil => simp [hd]
  | cons i l ih =>
    rw [List.foldl_cons, ih (bump A d (key i) (sym i)) (fun x a => f x a + if key i = x ∧ sym i = a then 1 else 0)]
    · apply List.map_congr_left
      intro a _
      rw [List.countP_cons]
      simp only [decide_eq_true_eq]
      omega
    · intro y
      rw [counts_bump]
      split
      · rename_i he
        subst he
        rw [hd]
        apply modify_range
        intro a _
        simp [eq_comm]
      · rename_i he
        rw [hd]
        apply List.map_congr_left
        intro a _
        rw [if_neg (fun hc => he hc.1.symm)]
        rfl

theorem mem_interior {n k i : Nat} : i ∈ interior n k ↔ k ≤ i ∧ i + k < n := by
  unfold interior
  rw [List.mem_drop_iff_getElem]
  constructor
  · rintro ⟨j, hj, h⟩
    simp at hj h
    omega
  · rintro ⟨h1, h2⟩
    exact ⟨i - k, by simp; omega, by simp; omega⟩

theorem interior_nodup (n k : Nat) : (interior n k).Nodup := List.Sublist.nodup (List.drop_sublist _ _) List.nodup_range

theorem countP_interior (n k : Nat) (p : Nat → Bool) :
    (interior n k).countP p = (List.range n).countP fun j => decide (k ≤ j ∧ j + k < n) && p j := by
  have h : (interior n k).Perm ((List.range n).filter fun j => decide (k ≤ j ∧ j + k < n)) := by
    rw [List.perm_ext_iff_of_nodup (interior_nodup n k) (List.nodup_range.filter _)]
    intro i
    rw [mem_interior, List.mem_filter]
    simp
    omega
  rw [h.countP_eq, List.countP_filter]
  apply List.countP_congr
  intro j _
  rw [Bool.and_comm]

theorem context2_eq {obs : List Int} {k i : Nat} (h : k ≤ i) (hi : i + k < obs.length) :
    context2 obs k i = (before obs k i, after obs k i) := by
  unfold context2 before after pySlice
  congr 1
  · rw [List.drop_take]
    congr 1
    omega
  · rw [List.drop_take]
    congr 1
    omega

theorem foldlM_set_ok {ρ : Type} (l : List Nat) (g : Nat → Except PyErr ρ) (v : Nat → ρ) (hg : ∀ i ∈ l, g i = .ok (v i)) (est : List ρ) :
    ∃ out, l.foldlM (fun est i => match g i with
        | .error e => (.error e : Except PyErr (List ρ))
        | .ok x => .ok (est.set i x)) est = .ok out ∧ out.length = est.length ∧
      ∀ i < est.length, out[i]? = if i ∈ l then some (v i) else est[i]? := by
  induction l generalizing est with
  | nil => exact ⟨est, rfl, rfl, by simp⟩
  | cons a l ih =>
    obtain ⟨out, h1, h2, h3⟩ := ih (fun i hi => hg i (List.mem_cons_of_mem _ hi)) (est.set a (v a))
    refine ⟨out, ?_, by simpa using h2, ?_⟩
    · rw [List.foldlM_cons, hg a List.mem_cons_self]
      exact h1
    · intro i hi
      rw [h3 i (by simpa using hi)]
      by_cases hil : i ∈ l
      · simp [hil]
      · rw [if_neg hil, List.getElem?_set]
        by_cases he : a = i
        · subst he; simp [hi]
        · simp [he, hil, Ne.symm he]

/-- C44: for symbols in range, `denoise_sequence` returns; positions closer than `k` to either end are echoed, and every other
decision uses exactly the numbers of occurrences, at all those inner positions, of each symbol between the same `k` symbols
before and `k` symbols after. -/
theorem c44_counts {ρ : Type} (D : Decide ρ) (zero : ρ) (k A : Nat) (obs : List Int) (hobs : ∀ o ∈ obs, 0 ≤ o ∧ o < A) :
    ∃ out, dudeSequence D zero A k obs = .ok out ∧ out.length = obs.length ∧
      ∀ i, (hi : i < obs.length) → out[i]? = some (if k ≤ i ∧ i + k < obs.length then
        D.dec ((List.range A).map (insideCount obs k i)) obs[i] else D.echo obs[i]) := by
  let d := (interior obs.length k).foldl (fun d i => bump A d (context2 obs k i) (obs.getD i 0).toNat) []
  have hcnt : ∀ i ∈ interior obs.length k, dictGet d (context2 obs k i) = some ((List.range A).map (insideCount obs k i)) := by
    intro i hi
    simp only [d]
    rw [bump_fold_some A (context2 obs k) (fun i => (obs.getD i 0).toNat) _ _ _ (Or.inl ⟨i, hi, rfl⟩),
      bump_fold_counts A (context2 obs k) (fun i => (obs.getD i 0).toNat) _ [] (fun _ _ => 0) (by
        intro x
        simp only [counts, dictGet, List.lookup_nil, Option.getD_none]
        apply List.ext_getElem
        · simp
        · intro i h1 h2; simp)]
    congr 1
    apply List.map_congr_left
    intro a _
    rw [Nat.zero_add, countP_interior]
    unfold insideCount
    apply List.countP_congr
    intro j hj
    have hj := List.mem_range.1 hj
    rw [mem_interior] at hi
    by_cases hc : k ≤ j ∧ j + k < obs.length
    · rw [context2_eq hc.1 hc.2, context2_eq hi.1 hi.2, List.getD_eq_getElem?_getD, List.getElem?_eq_getElem hj]
      have := hobs obs[j] (List.getElem_mem _)
      simp only [hc, and_self, decide_true, Bool.true_and, Prod.mk.injEq, Option.getD_some, true_and, Option.some.injEq,
        decide_eq_true_eq, and_assoc]
      have e : obs[j].toNat = a ↔ obs[j] = (a : Int) := by omega
      rw [e]
    · have : ¬ (k ≤ j ∧ j + k < obs.length ∧ before obs k j = before obs k i ∧ after obs k j = after obs k i ∧
          obs[j]? = some (a : Int)) := fun h => hc ⟨h.1, h.2.1⟩
      simp [hc, this]
  obtain ⟨out, h1, h2, h3⟩ := foldlM_set_ok (interior obs.length k)
    (fun i => match dictGet d (context2 obs k i) with
      | none => .error .keyError
      | some c => .ok (D.dec c (obs.getD i 0)))
    (fun i => D.dec ((List.range A).map (insideCount obs k i)) (obs.getD i 0))
    (by intro i hi; simp only [hcnt i hi])
    (((List.replicate obs.length zero).mapIdx fun i x => if i < k then D.echo (obs.getD i 0) else x).mapIdx
      fun i x => if k = 0 ∨ obs.length - k ≤ i then D.echo (obs.getD i 0) else x)
  refine ⟨out, ?_, by simpa using h2, ?_⟩
  · rw [← h1]
    unfold dudeSequence
    show List.foldlM _ _ _ = List.foldlM _ _ _
    congr 1
    funext est i
    show (match dictGet d (context2 obs k i) with | none => _ | some counts => _) = _
    cases dictGet d (context2 obs k i) <;> rfl
  · intro i hi
    rw [h3 i (by simpa using hi)]
    have hg : obs.getD i 0 = obs[i] := by rw [List.getD_eq_getElem?_getD, List.getElem?_eq_getElem hi]; rfl
    simp only [mem_interior]
    split
    · rw [hg]
    · rename_i hc
      simp only [List.getElem?_mapIdx, List.getElem?_replicate, hi, if_true, Option.map_some, hg, Option.some.injEq]
      split
      · rfl
      · rw [if_pos (by omega)]

/-- C44: `denoise_sample` of the two-sided denoiser always raises. -/
theorem c44_sample (o : Int) : Raises (dudeSample o) .attributeError := rfl

example : dudeSequence showCounts ([], 0) 2 1 [0, 1, 0, 0, 0, 1, 0, 1, 1] =
    .ok [([], 0), ([1, 2], 1), ([1, 0], 0), ([1, 2], 0), ([1, 1], 0), ([1, 2], 1), ([1, 0], 0), ([1, 1], 1), ([], 1)] := by decide +kernel

end NR

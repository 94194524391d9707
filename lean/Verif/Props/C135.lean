import Verif.Props.C134
import Verif.Props.C131
/-
C135: the second attempt of the weighted decoder starts from the constant value of every bit that never changed, with either estimator
and every confidence scheme.
-/
namespace NR.C135
open NR NR.C131 NR.C134
open NR.Spec hiding trust

variable {Λ : Type}

/-- The words a model counts: with the Bayes estimator all it has learned (as long as no counter was halved), with MLE the last
`window_length` of them. -/
def counted (c : WbdCfg) (ws : List (List Bool)) : List (List Bool) := if c.bayes then ws else keep c.window ws

/-- Whether the share of ones is corrected for bits flipped by the channel. -/
def corrects (c : WbdCfg) : Prop := c.bayes = true ∨ c.correctedDist = true

open Classical in
/-- The flip probability a model corrects for. -/
noncomputable def flips (c : WbdCfg) : ℝ := if corrects c then c.bitFlip else 0

/-- The probability of a one at bit `k`, estimated from the words `D`. -/
noncomputable def prob (c : WbdCfg) (D : List (List Bool)) (k : Nat) : ℝ := chance (flips c) D k

/-- Bit `k` is predictable: there are words, and the entropy of its distribution, in bits, is below the threshold. -/
def Steady (c : WbdCfg) (D : List (List Bool)) (k : Nat) : Prop := D ≠ [] ∧ Real.binEntropy (prob c D k) / Real.log 2 < c.threshold

open Classical in
/-- The log-odds of a zero at bit `k`, if the bit is steady. -/
noncomputable def odds (c : WbdCfg) (D : List (List Bool)) (k : Nat) : ℝ :=
  if Steady c D k then Real.log ((floatEps + (1 - prob c D k)) / (prob c D k + floatEps)) else 0

open Classical in
/-- The variance scheme 4 weighs a model by. -/
noncomputable def spread (c : WbdCfg) (D : List (List Bool)) : ℝ :=
  if c.bayes then modelVariance c.bitFlip c.modelLength D
  else 2 * ((∑ j ∈ Finset.range c.modelLength, prob c D j * (1 - prob c D j)) / c.modelLength)

/-- What the two models count for, if `A` and `B` are the words they are made of: the confidences as they are; in scheme 1 weighed by
their shares; in scheme 3 only the first and in scheme 5 only the second; in scheme 4 weighed by the variances. -/
noncomputable def influence (c : WbdCfg) (A B : List (List Bool)) : ℝ × ℝ :=
  let a := trust A.length c.aCenter c.aSlope
  let b := trust B.length c.bCenter c.bSlope
  if c.scheme = 1 then (a ^ 2 / (a + b), b ^ 2 / (a + b))
  else if c.scheme = 3 then (a, 0)
  else if c.scheme = 5 then (0, b)
  else if c.scheme = 4 then (a * weight (spread c A), b * weight (spread c B))
  else (a, b)

/-- A decoder after any calls, with at least one model bit and no two at the same place; with the Bayes estimator, before any counter
was halved; with the MLE estimator, all calls having returned. `A` and `B` are the words its two models are made of. -/
structure History (c : WbdCfg) (ldpc : Ldpc Λ) (s : Wbd Λ) (A B : List (List Bool)) : Prop where
  bitsPos : 0 < c.modelLength
  bits : c.idx.length = c.modelLength
  distinct : c.idx.Nodup
  calls : ∃ l s0 words steps, Wbd.new c l = .ok s0 ∧ Wbd.run c ldpc s0 words = (s, steps) ∧
    A = counted c (goodWords c.idx (wbdEvents words steps)) ∧ B = counted c (allWords c.idx (wbdEvents words steps)) ∧
    ((c.bayes = true ∧ c.bitFlip ≠ 1 / 2 ∧ ∃ w, c.window = some w ∧ A.length + 2 ≤ 2 * w ∧ B.length + 2 ≤ 2 * w) ∨
      (c.bayes = false ∧ c.window ≠ some 0 ∧ ∀ st ∈ steps, ∃ out, st.result = .ok out))

/-- The state of a model made of the words `D`. -/
structure Made (c : WbdCfg) (h : Half) (D : List (List Bool)) : Prop where
  size : h.size c = .ok D.length
  empty : D = [] → h.dist = []
  dist : D ≠ [] → h.dist = (List.range c.modelLength).map fun (j : Nat) => [1 - prob c D j, prob c D j]
  ents : h.ents = h.dist.map fun r => scipyEntropy r 2
  var : D ≠ [] → h.var = .val (spread c D)
  spread : 0 ≤ spread c D

theorem keep_nil {w : Option Nat} (hw : w ≠ some 0) (ws : List (List Bool)) : keep w ws = [] ↔ ws = [] := by
  constructor
  · intro h
    cases w with
    | none => exact h
    | some n =>
      have hn : n ≠ 0 := fun h0 => hw (by rw [h0])
      unfold keep lastN at h
      simp only [List.drop_eq_nil_iff] at h
      by_contra hne
      have := List.length_pos_iff.2 hne
      omega
  · rintro rfl
    cases w <;> simp [keep, lastN]

theorem chance_zero (D : List (List Bool)) (k : Nat) : chance 0 D k = oneShare D k := by
  obtain ⟨h1, h2⟩ := share_range D k
  unfold chance
  rw [sub_zero, mul_zero, sub_zero, div_one, max_eq_right h1, min_eq_right h2]

theorem made {c : WbdCfg} {ldpc : Ldpc Λ} {s : Wbd Λ} {A B : List (List Bool)} (H : History c ldpc s A B) :
    Made c s.a A ∧ Made c s.b B := by
  obtain ⟨l, s0, words, steps, h0, hr, hA, hB, hc⟩ := H.calls
  have hx := H.bits
  have hm := H.bitsPos
  rcases hc with ⟨hb, hf, w, hw, hla, hlb⟩ | ⟨hb, hw, hall⟩
  · have hcnt : ∀ ws, counted c ws = ws := fun ws => by unfold counted; rw [if_pos hb]
    rw [hcnt] at hA hB
    have key : ∀ (h : Half) (ws : List (List Bool)), (h = s.a ∧ ws = goodWords c.idx (wbdEvents words steps)) ∨
        (h = s.b ∧ ws = allWords c.idx (wbdEvents words steps)) → ws.length + 2 ≤ 2 * w → Made c h ws := by
      intro h ws hh hle
      obtain ⟨e1, e2, _⟩ := c134_bayes hb hm hx hw ldpc h0 hr h ws hh hle
      have e3 := (c65_exact hb hm hx hw ldpc h0 hr h ws hh hle).2
      obtain ⟨e4, _, _, e5⟩ := c65_probabilities hb hm hx ldpc h0 hr h ws hh
      have hp : ∀ j, prob c ws j = corrected c.bitFlip (oneShare ws j) := by
        intro j
        unfold prob flips
        rw [if_pos (show corrects c from Or.inl hb)]
        rfl
      refine ⟨e1, e4, ?_, e5, ?_, ?_⟩
      · intro hne
        rw [e3 hne]
        simp only [hp]
      · intro hne
        rw [e2 hne]
        unfold spread
        rw [if_pos hb]
      · unfold spread
        rw [if_pos hb]
        exact (c134_bayes_range c.bitFlip hf c.modelLength hm ws).1.le
    exact ⟨key s.a A (.inl ⟨rfl, hA⟩) hla, key s.b B (.inr ⟨rfl, hB⟩) hlb⟩
  · have hcnt : ∀ ws, counted c ws = keep c.window ws := fun ws => by unfold counted; rw [if_neg (by simp [hb])]
    rw [hcnt] at hA hB
    have key : ∀ (h : Half) (ws : List (List Bool)), (h = s.a ∧ ws = goodWords c.idx (wbdEvents words steps)) ∨
        (h = s.b ∧ ws = allWords c.idx (wbdEvents words steps)) → Made c h (keep c.window ws) := by
      intro h ws hh
      obtain ⟨e1, e2, _, e3, _⟩ := c134_mle hb hm hx hw ldpc h0 hr hall h ws hh
      obtain ⟨_, e4, e5⟩ := c71_windows hb hm hx hw ldpc h0 hr hall h ws hh
      have hp : ∀ j, prob c (keep c.window ws) j = mleProb c (keep c.window ws) j := by
        intro j
        unfold prob flips mleProb
        cases hcd : c.correctedDist
        · rw [if_neg (by simp [corrects, hb, hcd]), chance_zero]
          rfl
        · rw [if_pos (show corrects c from Or.inr hcd)]
          rfl
      have hs : spread c (keep c.window ws) = 2 * ((∑ j ∈ Finset.range c.modelLength,
          mleProb c (keep c.window ws) j * (1 - mleProb c (keep c.window ws) j)) / c.modelLength) := by
        unfold spread
        rw [if_neg (by simp [hb])]
        simp only [hp]
      refine ⟨e1, ?_, ?_, e5, ?_, by rw [hs]; exact e3⟩
      · intro hn
        rw [e4, if_pos ((keep_nil hw ws).1 hn)]
      · intro hn
        rw [e4, if_neg (fun h' => hn ((keep_nil hw ws).2 h'))]
        simp only [hp]
      · intro hn
        rw [e2 (fun h' => hn ((keep_nil hw ws).2 h')), hs]
    rw [hA, hB]
    exact ⟨key s.a _ (.inl ⟨rfl, rfl⟩), key s.b _ (.inr ⟨rfl, rfl⟩)⟩

theorem low_steady {c : WbdCfg} {h : Half} {D : List (List Bool)} (M : Made c h D) {k : Nat} (hk : k < c.modelLength) :
    LowAt c.threshold h.ents k ↔ Steady c D k := by
  unfold LowAt Steady
  rw [M.ents]
  by_cases hD : D = []
  · rw [M.empty hD]
    simp [hD]
  · rw [M.dist hD]
    simp [hk, hD, entropyPair]

theorem boost_odds {c : WbdCfg} {h : Half} {D : List (List Bool)} (M : Made c h D) {k : Nat} (hk : k < c.modelLength) (x : ℝ) :
    boost c h x k = x * odds c D k := by
  unfold boost odds
  by_cases hs : Steady c D k
  · have hrow : h.dist.getD k [] = [1 - prob c D k, prob c D k] := by
      rw [M.dist hs.1]; simp [hk]
    rw [if_pos ((low_steady M hk).2 hs), if_pos hs, hrow]
    rfl
  · rw [if_neg (fun h' => hs ((low_steady M hk).1 h')), if_neg hs, mul_zero]

theorem fits {c : WbdCfg} (hx : c.idx.length = c.modelLength) {h : Half} {D : List (List Bool)} (M : Made c h D) (hne : D ≠ []) :
    Fits c h := by
  refine ⟨by rw [M.ents, M.dist hne]; simp [hx], by rw [M.dist hne]; simp [hx], ?_⟩
  rw [M.dist hne]
  intro r hr
  obtain ⟨j, _, rfl⟩ := List.mem_map.1 hr
  simp

theorem weight_pos {x : ℝ} (hx : 0 ≤ x) : 0 < weight x ∧ weight x ≤ 1 :=
  ⟨by
    rcases hx.eq_or_lt with h | h
    · rw [← h]; unfold weight; simp
    · exact (c134_weight 0 x (le_refl _) h).2.1, (c134_weight x (x + 1) hx (by linarith)).2.2⟩

theorem trust_range (n : Nat) (center slope : ℝ) : 0 ≤ trust n center slope ∧ trust n center slope ≤ 1 :=
  (c71_confidences n center slope).1

/-- **C135.** The influence of a model is never negative and never more than the confidence in it. -/
theorem c135_influence {c : WbdCfg} {A B : List (List Bool)} (ha : 0 ≤ spread c A) (hb : 0 ≤ spread c B) :
    0 ≤ (influence c A B).1 ∧ (influence c A B).1 ≤ trust A.length c.aCenter c.aSlope ∧
    0 ≤ (influence c A B).2 ∧ (influence c A B).2 ≤ trust B.length c.bCenter c.bSlope := by
  obtain ⟨a0, a1⟩ := trust_range A.length c.aCenter c.aSlope
  obtain ⟨b0, b1⟩ := trust_range B.length c.bCenter c.bSlope
  obtain ⟨wa, wa1⟩ := weight_pos ha
  obtain ⟨wb, wb1⟩ := weight_pos hb
  have key : ∀ x y : ℝ, 0 ≤ x → 0 ≤ y → x ^ 2 / (x + y) ≤ x := by
    intro x y hx hy
    apply div_le_of_le_mul₀ (by linarith) hx
    nlinarith
  unfold influence
  simp only
  split
  · refine ⟨by positivity, key _ _ a0 b0, by positivity, ?_⟩
    rw [add_comm]
    exact key _ _ b0 a0
  · split
    · exact ⟨a0, le_refl _, le_refl _, b0⟩
    · split
      · exact ⟨le_refl _, a0, b0, le_refl _⟩
      · split
        · exact ⟨by positivity, mul_le_of_le_one_right a0 wa1, by positivity, mul_le_of_le_one_right b0 wb1⟩
        · exact ⟨a0, le_refl _, b0, le_refl _⟩

/-- The code uses what it learned only if some bit other than bit 0 of the codeword is steady. -/
def Used (c : WbdCfg) (A B : List (List Bool)) : Prop := ∃ k i, c.idx[k]? = some i ∧ i ≠ 0 ∧ (Steady c A k ∨ Steady c B k)

/-- **C135.** The second attempt: let the received word not be decoded at the first attempt, let some bit other than bit 0 of the
codeword be steady and, in scheme 4, let both models have words. Then the LDPC decoder gets, at the position of model bit `k`, the
received ratio plus the log-odds of both models, each times the model's influence, elsewhere the received ratio, clipped to plus and
minus the clipping factor times the largest ratio received. -/
theorem c135_second {c : WbdCfg} {ldpc : Ldpc Λ} {s : Wbd Λ} {A B : List (List Bool)} (H : History c ldpc s A B)
    (h4 : c.scheme = 4 → A ≠ [] ∧ B ≠ []) (hu : Used c A B) (word : List ℝ) (hlt : ∀ i ∈ c.idx, i < word.length)
    (hfail : (ldpc s.ldpc (.llr word)).2.success = false) :
    ∃ v m, (s.decode c ldpc word).handed = [.llr word, .llr v] ∧ v.length = word.length ∧ m ∈ word ∧ (∀ x ∈ word, x ≤ m) ∧
      (∀ k i, c.idx[k]? = some i → v.getD i 0 = npClip (-(c.clipping * m)) (c.clipping * m)
        (word.getD i 0 + (influence c A B).1 * odds c A k + (influence c A B).2 * odds c B k)) ∧
      (∀ i < word.length, i ∉ c.idx → v.getD i 0 = npClip (-(c.clipping * m)) (c.clipping * m) (word.getD i 0)) := by
  obtain ⟨MA, MB⟩ := made H
  have hx := H.bits
  have hne : word ≠ [] := by
    obtain ⟨k, i, hk, _⟩ := hu
    have := hlt i (List.mem_of_getElem? hk)
    rintro rfl
    simp at this
  obtain ⟨m, hm, hmem, hle⟩ := pyMax_spec hne
  obtain ⟨i0, i1, i2, i3⟩ := c135_influence MA.spread MB.spread
  have hents : ∀ (h : Half) (D : List (List Bool)), Made c h D → h.ents = [] ∨ h.ents.length = c.idx.length := by
    intro h D M
    by_cases hD : D = []
    · left; rw [M.ents, M.empty hD]; rfl
    · right; rw [M.ents, M.dist hD]; simp [hx]
  have hfit : ∀ (h : Half) (D : List (List Bool)) (x center slope : ℝ), Made c h D → x ≤ trust D.length center slope → 0 < x → Fits c h := by
    intro h D x center slope M hle hpos
    refine fits hx M ?_
    rintro rfl
    have : trust ([] : List (List Bool)).length center slope = 0 := by simp [trust]
    linarith
  have hconf : confidences c.scheme (modelConfidence A.length c.aCenter c.aSlope) (modelConfidence B.length c.bCenter c.bSlope)
      s.a.var s.b.var = .ok ((influence c A B).1, (influence c A B).2) := by
    have ea : modelConfidence A.length c.aCenter c.aSlope = trust A.length c.aCenter c.aSlope := rfl
    have eb : modelConfidence B.length c.bCenter c.bSlope = trust B.length c.bCenter c.bSlope := rfl
    rw [ea, eb]
    obtain ⟨a0, _⟩ := trust_range A.length c.aCenter c.aSlope
    obtain ⟨b0, _⟩ := trust_range B.length c.bCenter c.bSlope
    by_cases hs4 : c.scheme = 4
    · obtain ⟨hA, hB⟩ := h4 hs4
      rw [MA.var hA, MB.var hB, hs4, c134_weights]
      unfold influence
      simp [hs4]
    · unfold confidences influence
      by_cases h0 : c.scheme = 0
      · simp [h0]
      by_cases h1 : c.scheme = 1
      · simp only [h1, if_true, show ¬ ((1 : Int) = 0) by decide, if_false]
        generalize trust A.length c.aCenter c.aSlope = a at a0 ⊢
        generalize trust B.length c.bCenter c.bSlope = b at b0 ⊢
        split
        · congr 2 <;> ring
        · have ha : a = 0 := by linarith
          have hb : b = 0 := by linarith
          simp [ha, hb]
      by_cases h3 : c.scheme = 3
      · simp [h3]
      by_cases h5 : c.scheme = 5
      · simp [h5]
      · simp [h0, h1, h3, h5, hs4]
  obtain ⟨v, p1, p2, p3, p4⟩ := c71_prediction ({ s with ldpc := (ldpc s.ldpc (.llr word)).1 } : Wbd Λ) H.distinct
    (hents _ _ MA) (hents _ _ MB)
    (by
      obtain ⟨k, i, hk, hi, hs⟩ := hu
      obtain ⟨hk1, hk2⟩ := List.getElem?_eq_some_iff.1 hk
      refine ⟨k, ?_, by rw [List.getD_eq_getElem?_getD, hk]; exact hi⟩
      rcases hs with hs | hs
      · exact .inl ((low_steady MA (by omega)).2 hs)
      · exact .inr ((low_steady MB (by omega)).2 hs))
    MA.size MB.size hconf i0 i2 (hfit _ _ _ _ _ MA i1) (hfit _ _ _ _ _ MB i3) word hlt hm
  refine ⟨v, m, ?_, p2, hmem, hle, ?_, p3⟩
  · unfold Wbd.decode
    simp only [hfail, Bool.false_eq_true, if_false, p1]
    exact finish_handed _ _ _ _ _ _
  · intro k i hk
    obtain ⟨hk1, rfl⟩ := List.getElem?_eq_some_iff.1 hk
    rw [p4 k hk1, boost_odds MA (by omega), boost_odds MB (by omega)]

/-- A word that is not decoded at the first attempt, as in `c135_second`, the decoder clipping and some ratio received being positive. -/
structure Case (c : WbdCfg) (ldpc : Ldpc Λ) (s : Wbd Λ) (A B : List (List Bool)) (word : List ℝ) : Prop where
  history : History c ldpc s A B
  clips : 0 < c.clipping
  weighed : c.scheme = 4 → A ≠ [] ∧ B ≠ []
  used : Used c A B
  long : ∀ i ∈ c.idx, i < word.length
  failed : (ldpc s.ldpc (.llr word)).2.success = false
  positive : ∃ x ∈ word, 0 < x

/-- **C135.** The decisions the second attempt starts from: one at the position of a model bit exactly if the received ratio plus what
the models add is negative, elsewhere exactly as received. -/
theorem c135_decisions {c : WbdCfg} {ldpc : Ldpc Λ} {s : Wbd Λ} {A B : List (List Bool)} {word : List ℝ} (K : Case c ldpc s A B word) :
    ∃ v, (s.decode c ldpc word).handed = [.llr word, .llr v] ∧ v.length = word.length ∧
      (∀ k i, c.idx[k]? = some i → (v.getD i 0 < 0 ↔
        word.getD i 0 + (influence c A B).1 * odds c A k + (influence c A B).2 * odds c B k < 0)) ∧
      (∀ i < word.length, i ∉ c.idx → (v.getD i 0 < 0 ↔ word.getD i 0 < 0)) := by
  obtain ⟨v, m, h1, h2, h3, h4, h5, h6⟩ := c135_second K.history K.weighed K.used word K.long K.failed
  have hb : 0 < c.clipping * m := by
    obtain ⟨x, hx, h0⟩ := K.positive
    exact mul_pos K.clips (lt_of_lt_of_le h0 (h4 x hx))
  exact ⟨v, h1, h2, fun k i hk => by rw [h5 k i hk, clip_neg hb], fun i hi hn => by rw [h6 i hi hn, clip_neg hb]⟩

/-- The flip probability and the threshold make sense. -/
structure Sensible (c : WbdCfg) : Prop where
  flipsNonneg : 0 ≤ c.bitFlip
  flipsHalf : c.bitFlip < 1 / 2
  threshold : 0 < c.threshold

theorem flips_range {c : WbdCfg} (S : Sensible c) : 0 ≤ flips c ∧ flips c < 1 / 2 := by
  unfold flips
  split
  · exact ⟨S.flipsNonneg, S.flipsHalf⟩
  · norm_num

theorem odds_constant {c : WbdCfg} (S : Sensible c) {D : List (List Bool)} (hne : D ≠ []) {k : Nat} {b : Bool}
    (h : Constant (flips c) D k b) : odds c D k = (if b then -1 else 1) * Real.log ((floatEps + 1) / floatEps) := by
  have hp : prob c D k = if b then 1 else 0 := chance_constant (flips_range S).2 h
  have hs : Steady c D k := by
    refine ⟨hne, ?_⟩
    rw [hp]
    have := S.threshold
    cases b <;> simpa using this
  unfold odds
  rw [if_pos hs, hp]
  cases b
  · simp
  · simp only [if_true, sub_self, add_zero]
    rw [add_comm 1 floatEps, ← inv_div, Real.log_inv]
    ring

theorem decide_repair {r x : ℝ} {b : Bool} (hx : 0 < x) (hr : |r| ≤ 36 * x) :
    (r + (if b then -1 else 1) * (x * Real.log ((floatEps + 1) / floatEps)) < 0 ↔ b = true) := by
  have hlt : |r| < x * Real.log ((floatEps + 1) / floatEps) := by
    have := mul_lt_mul_of_pos_left log_eps hx
    linarith
  obtain ⟨ha, hb⟩ := abs_lt.1 hlt
  cases b
  · simp only [Bool.false_eq_true, if_false, iff_false, not_lt]
    linarith
  · simp only [if_true, iff_true]
    linarith

/-- **C135.** Repair: at a bit that never changed in the words of either model, the second attempt starts from its constant value,
whatever was received there, as long as the magnitude received is at most 36 times the influence of both models. -/
theorem c135_repaired {c : WbdCfg} (S : Sensible c) {ldpc : Ldpc Λ} {s : Wbd Λ} {A B : List (List Bool)} {word : List ℝ}
    (K : Case c ldpc s A B word) (hi : 0 < (influence c A B).1 + (influence c A B).2) (hA : A ≠ []) (hB : B ≠ []) :
    ∃ v, (s.decode c ldpc word).handed = [.llr word, .llr v] ∧
      ∀ k i b, c.idx[k]? = some i → Constant (flips c) A k b → Constant (flips c) B k b →
        |word.getD i 0| ≤ 36 * ((influence c A B).1 + (influence c A B).2) → (v.getD i 0 < 0 ↔ b = true) := by
  obtain ⟨v, h1, _, h3, _⟩ := c135_decisions K
  refine ⟨v, h1, fun k i b hk ha hb hle => ?_⟩
  rw [h3 k i hk, odds_constant S hA ha, odds_constant S hB hb]
  refine Iff.trans ?_ (decide_repair hi hle)
  have e : ∀ r x y q g : ℝ, r + x * (q * g) + y * (q * g) = r + q * ((x + y) * g) := fun r x y q g => by ring
  rw [e]

/-- **C135.** If a bit never changed in the words of one model and is not steady in those of the other, the first alone repairs it. -/
theorem c135_one_model {c : WbdCfg} (S : Sensible c) {ldpc : Ldpc Λ} {s : Wbd Λ} {A B : List (List Bool)} {word : List ℝ}
    (K : Case c ldpc s A B word) :
    ∃ v, (s.decode c ldpc word).handed = [.llr word, .llr v] ∧
      ∀ k i b, c.idx[k]? = some i →
        (A ≠ [] → 0 < (influence c A B).1 → Constant (flips c) A k b → ¬ Steady c B k → |word.getD i 0| ≤ 36 * (influence c A B).1 →
          (v.getD i 0 < 0 ↔ b = true)) ∧
        (B ≠ [] → 0 < (influence c A B).2 → Constant (flips c) B k b → ¬ Steady c A k → |word.getD i 0| ≤ 36 * (influence c A B).2 →
          (v.getD i 0 < 0 ↔ b = true)) := by
  obtain ⟨v, h1, _, h3, _⟩ := c135_decisions K
  refine ⟨v, h1, fun k i b hk => ⟨fun hA hi hc hn hle => ?_, fun hB hi hc hn hle => ?_⟩⟩
  · have : odds c B k = 0 := by unfold odds; rw [if_neg hn]
    rw [h3 k i hk, odds_constant S hA hc, this, mul_zero, add_zero]
    refine Iff.trans ?_ (decide_repair hi hle)
    rw [mul_left_comm]
  · have : odds c A k = 0 := by unfold odds; rw [if_neg hn]
    rw [h3 k i hk, odds_constant S hB hc, this, mul_zero, add_zero]
    refine Iff.trans ?_ (decide_repair hi hle)
    rw [mul_left_comm]

theorem trust_centre {n : Nat} {center slope : ℝ} (h2 : 2 ≤ n) (hc : center ≤ n) (hs : 0 ≤ slope) : 1 / 2 ≤ trust n center slope := by
  unfold trust
  rw [if_neg (by omega)]
  have : Real.exp (-((n : ℝ) - center) * slope) ≤ 1 := by
    rw [Real.exp_le_one_iff]
    exact mul_nonpos_of_nonpos_of_nonneg (by linarith) hs
  have hp := Real.exp_pos (-((n : ℝ) - center) * slope)
  exact one_div_le_one_div_of_le (by linarith) (by linarith)

/-- Both models have at least two words and as many as the centres of their confidences. -/
structure Seasoned (c : WbdCfg) (A B : List (List Bool)) : Prop where
  two : 2 ≤ A.length ∧ 2 ≤ B.length
  centre : c.aCenter ≤ A.length ∧ c.bCenter ≤ B.length
  slope : 0 ≤ c.aSlope ∧ 0 ≤ c.bSlope

/-- **C135.** Seasoned models have, together, an influence of at least one half, and of at least 1 in scheme 0; in scheme 4 with the
Bayes estimator it is at least half of what the numbers of words allow. -/
theorem c135_seasoned {c : WbdCfg} {A B : List (List Bool)} (G : Seasoned c A B) :
    (c.scheme ≠ 4 → 1 / 2 ≤ (influence c A B).1 + (influence c A B).2) ∧
    (c.scheme ∉ [1, 3, 4, 5] → 1 ≤ (influence c A B).1 + (influence c A B).2) ∧
    (c.scheme = 4 → c.bayes = true → c.bitFlip ≠ 1 / 2 → 0 < c.modelLength →
      1 / 2 * (1 - Real.exp (-((1 - 2 * c.bitFlip) ^ 2 * (A.length + 3) / 30))) +
      1 / 2 * (1 - Real.exp (-((1 - 2 * c.bitFlip) ^ 2 * (B.length + 3) / 30))) ≤ (influence c A B).1 + (influence c A B).2) := by
  have ha := trust_centre G.two.1 G.centre.1 G.slope.1
  have hb := trust_centre G.two.2 G.centre.2 G.slope.2
  refine ⟨fun h4 => ?_, fun hn => ?_, fun h4 hb' hf hm => ?_⟩
  · unfold influence
    simp only
    generalize trust A.length c.aCenter c.aSlope = a at *
    generalize trust B.length c.bCenter c.bSlope = b at *
    split
    · simp only
      rw [← add_div, le_div_iff₀ (by linarith)]
      nlinarith [sq_nonneg (a - b)]
    · split
      · simp only; linarith
      · split
        · simp only; linarith
        · simp only; linarith
  · simp only [List.mem_cons, List.not_mem_nil, or_false, not_or] at hn
    unfold influence
    simp only [hn.1, hn.2.1, hn.2.2.1, hn.2.2.2, if_false]
    linarith
  · unfold influence spread
    simp only [h4, hb', if_true, show ¬ ((4 : Int) = 1) by decide, show ¬ ((4 : Int) = 3) by decide, show ¬ ((4 : Int) = 5) by decide,
      if_false]
    have key : ∀ (D : List (List Bool)) (t : ℝ), 1 / 2 ≤ t → 1 / 2 * (1 - Real.exp (-((1 - 2 * c.bitFlip) ^ 2 * (D.length + 3) / 30))) ≤
        t * weight (modelVariance c.bitFlip c.modelLength D) := by
      intro D t ht
      have h1 := c134_bayes_weight c.bitFlip hf c.modelLength hm D
      have h2 : 0 ≤ 1 - Real.exp (-((1 - 2 * c.bitFlip) ^ 2 * (D.length + 3) / 30)) := by
        have : Real.exp (-((1 - 2 * c.bitFlip) ^ 2 * (D.length + 3) / 30)) ≤ 1 := by
          rw [Real.exp_le_one_iff]
          have : 0 ≤ (1 - 2 * c.bitFlip) ^ 2 * ((D.length : ℝ) + 3) / 30 := by positivity
          linarith
        linarith
      exact mul_le_mul ht h1 h2 (by linarith)
    exact add_le_add (key A _ ha) (key B _ hb)

/-- **C135.** Seasoned models repair ratios up to 18 at every bit that was the same in all their words, unless the scheme is 4; in
scheme 0 ratios up to 36. -/
theorem c135_centre {c : WbdCfg} (S : Sensible c) (h4 : c.scheme ≠ 4) {ldpc : Ldpc Λ} {s : Wbd Λ} {A B : List (List Bool)} {word : List ℝ}
    (K : Case c ldpc s A B word) (G : Seasoned c A B) :
    ∃ v, (s.decode c ldpc word).handed = [.llr word, .llr v] ∧
      ∀ k i b, c.idx[k]? = some i → (∀ x ∈ A ++ B, x.getD k false = b) →
        |word.getD i 0| ≤ (if c.scheme = 0 then 36 else 18) → (v.getD i 0 < 0 ↔ b = true) := by
  obtain ⟨g1, g2, _⟩ := c135_seasoned G
  have hA : A ≠ [] := by rintro rfl; have := G.two.1; simp at this
  have hB : B ≠ [] := by rintro rfl; have := G.two.2; simp at this
  have g1 := g1 h4
  obtain ⟨v, h1, h3⟩ := c135_repaired S K (by linarith) hA hB
  have hf := (flips_range S).1
  refine ⟨v, h1, fun k i b hk hall hle => h3 k i b hk (constant_of_all hf hA fun x hx => hall x (by simp [hx]))
    (constant_of_all hf hB fun x hx => hall x (by simp [hx])) (hle.trans ?_)⟩
  split
  · rename_i h0
    have := g2 (by rw [h0]; decide)
    linarith
  · linarith

/-- **C135.** Bits that are steady in neither model, and bits outside the models, are decided as received. -/
theorem c135_untouched {c : WbdCfg} {ldpc : Ldpc Λ} {s : Wbd Λ} {A B : List (List Bool)} {word : List ℝ} (K : Case c ldpc s A B word) :
    ∃ v, (s.decode c ldpc word).handed = [.llr word, .llr v] ∧
      ∀ i < word.length, (∀ k, c.idx[k]? = some i → ¬ Steady c A k ∧ ¬ Steady c B k) → (v.getD i 0 < 0 ↔ word.getD i 0 < 0) := by
  obtain ⟨v, h1, _, h3, h4⟩ := c135_decisions K
  refine ⟨v, h1, fun i hi hn => ?_⟩
  by_cases hx : i ∈ c.idx
  · obtain ⟨k, hk⟩ := List.getElem?_of_mem hx
    rw [h3 k i hk]
    unfold odds
    rw [if_neg (hn k hk).1, if_neg (hn k hk).2, mul_zero, mul_zero, add_zero, add_zero]
  · exact h4 i hi hx

/-! ### The hypotheses can be met -/

/-- A decoder for the bits of one heartbeat, with scheme 0. -/
noncomputable def heartCfg : WbdCfg := { beatCfg with scheme := 0, aCenter := 2, bCenter := 2, aSlope := 1, bSlope := 1, clipping := 2 }

/-- An LDPC decoder that decodes so many words to the heartbeat and fails from then on. -/
def someLdpc : Ldpc Nat := fun n _ => (n - 1, ⟨beat, [], decide (0 < n), 1, [], []⟩)

theorem heart_len : beat.length = heartCfg.modelLength := by
  show beat.length = 136
  decide +kernel

theorem heart_step {ha hb : Half} {wa wb : List (List Bool)} (ia : BayesInv heartCfg ha wa) (ib : BayesInv heartCfg hb wb) (n : Nat)
    (word : List ℝ) : ∃ ha' hb', BayesInv heartCfg ha' (wa ++ [beat]) ∧ BayesInv heartCfg hb' (wb ++ [beat]) ∧
      ∃ st : WbdStep Nat, (⟨ha, hb, n + 1⟩ : Wbd Nat).decode heartCfg someLdpc word = st ∧ st.handed.length = 1 ∧
        (st.state = ⟨ha', hb', n⟩ ∨ st.state = ⟨ha, hb', n⟩) ∧ ∃ out, st.result = .ok out ∧ out.estimate = beat := by
  have hm : 0 < heartCfg.modelLength := by simp [heartCfg, beatCfg]
  have hx : heartCfg.idx.length = heartCfg.modelLength := by simp [heartCfg, beatCfg]
  have htk : takeIdx beat heartCfg.idx = .ok beat := by
    show takeIdx beat (List.range 136) = .ok beat
    decide +kernel
  obtain ⟨ha', ua, ja, _⟩ := bayes_update (c := heartCfg) rfl hm ia (bits := beat) heart_len
  obtain ⟨hb', ub, jb, _⟩ := bayes_update (c := heartCfg) rfl hm ib (bits := beat) heart_len
  obtain ⟨seg, hseg, _⟩ := c20_never_raises (packBits beat)
  refine ⟨ha', hb', ja, jb, _, rfl, ?_⟩
  have hd : (⟨ha, hb, n + 1⟩ : Wbd Nat).decode heartCfg someLdpc word =
      Wbd.finish heartCfg ⟨ha, hb, n⟩ [.llr word] ⟨beat, [], true, 1, [], []⟩ true word := by
    unfold Wbd.decode someLdpc
    simp
  rw [hd]
  unfold Wbd.finish
  simp only [htk, hseg, Bool.true_or, if_true, Wbd.learn, Wbd.updateA, Wbd.updateB, ua, ub]
  cases decide (MsgPart.unknown ∉ seg.parts)
  · obtain ⟨out, ho, he, _⟩ := wbd_output (c := heartCfg) (⟨ha, hb', n⟩ : Wbd Nat) ⟨beat, [], true, 1, [], []⟩
      seg.struct.length (bayes_ents ia hx) (bayes_ents jb hx)
    exact ⟨rfl, Or.inr rfl, out, ho, he⟩
  · obtain ⟨out, ho, he, _⟩ := wbd_output (c := heartCfg) (⟨ha', hb', n⟩ : Wbd Nat) ⟨beat, [], true, 1, [], []⟩
      seg.struct.length (bayes_ents ja hx) (bayes_ents jb hx)
    exact ⟨rfl, Or.inl rfl, out, ho, he⟩

/-- After two heartbeats both models are made of them. -/
theorem heart_history (word : List ℝ) : ∃ s, s.ldpc = 0 ∧ History heartCfg someLdpc s [beat, beat] [beat, beat] := by
  have hm : 0 < heartCfg.modelLength := by simp [heartCfg, beatCfg]
  have hx : heartCfg.idx.length = heartCfg.modelLength := by simp [heartCfg, beatCfg]
  have hba : bitsAt heartCfg.idx beat = beat := by
    show bitsAt (List.range 136) beat = beat
    decide +kernel
  have hrec : Recovered (bytesOf (bitsAt heartCfg.idx beat)) := beat_recovered
  have hn := bayes_new (c := heartCfg) rfl hm hx
  set h0 := Half.new heartCfg with hh0
  have hev : ∀ st : WbdStep Nat, st.handed.length = 1 → (∃ out, st.result = .ok out ∧ out.estimate = beat) →
      goodWords heartCfg.idx [⟨word, st.handed.length, st.result⟩] = [beat] ∧
      allWords heartCfg.idx [⟨word, st.handed.length, st.result⟩] = [beat] := by
    rintro st hk ⟨out, ho, he⟩
    constructor
    · have := goodWords_one heartCfg.idx ⟨word, st.handed.length, st.result⟩ out ho
      rw [he] at this
      unfold recoveredWord at this
      rw [if_pos hrec, hba] at this
      exact this
    · have := (allWords_one heartCfg.idx ⟨word, st.handed.length, st.result⟩ out ho).1 (Or.inl hk)
      rw [he, hba] at this
      exact this
  obtain ⟨ha1, hb1, ja1, jb1, st1, e1, k1, s1, o1⟩ := heart_step hn hn 1 word
  obtain ⟨x1, wx1, ix1, es1⟩ : ∃ x wx, BayesInv heartCfg x wx ∧ st1.state = ⟨x, hb1, 1⟩ := by
    rcases s1 with s1 | s1
    · exact ⟨_, _, ja1, s1⟩
    · exact ⟨_, _, hn, s1⟩
  obtain ⟨ha2, hb2, _, _, st2, e2, k2, s2, o2⟩ := heart_step ix1 jb1 0 word
  have hl : st2.state.ldpc = 0 := by rcases s2 with s2 | s2 <;> rw [s2]
  have hrun : Wbd.run heartCfg someLdpc (⟨h0, h0, 2⟩ : Wbd Nat) [word, word] = (st2.state, [st1, st2]) := by
    simp only [Wbd.run, e1, es1, e2]
  have hgw : goodWords heartCfg.idx (wbdEvents [word, word] [st1, st2]) = [beat, beat] ∧
      allWords heartCfg.idx (wbdEvents [word, word] [st1, st2]) = [beat, beat] := by
    have e : wbdEvents [word, word] [st1, st2] = ⟨word, st1.handed.length, st1.result⟩ :: [⟨word, st2.handed.length, st2.result⟩] := rfl
    obtain ⟨g1, g2⟩ := hev st1 k1 o1
    obtain ⟨g3, g4⟩ := hev st2 k2 o2
    rw [e, goodWords_cons, allWords_cons, g1, g2, g3, g4]
    exact ⟨rfl, rfl⟩
  refine ⟨st2.state, hl, hm, hx, List.nodup_range, 2, _, _, _, rfl, hrun, ?_, ?_, Or.inl ⟨rfl, ?_, 20, rfl, ?_, ?_⟩⟩
  · rw [hgw.1]; rfl
  · rw [hgw.2]; rfl
  · simp only [heartCfg, beatCfg]; norm_num
  · simp
  · simp

/-- The hypotheses of `c135_centre` are met by a decoder that has seen two heartbeats and now receives a word that is wrong everywhere a
one was sent. -/
example : ∃ s, Case heartCfg someLdpc s [beat, beat] [beat, beat] (List.replicate 136 10) ∧ Sensible heartCfg ∧ heartCfg.scheme ≠ 4 ∧
    Seasoned heartCfg [beat, beat] [beat, beat] ∧ ∃ k, heartCfg.idx[k]? = some k ∧ (∀ x ∈ [beat, beat] ++ [beat, beat], x.getD k false = true) ∧
      |(List.replicate 136 (10 : ℝ)).getD k 0| ≤ 36 := by
  obtain ⟨s, hs, H⟩ := heart_history []
  have S : Sensible heartCfg := ⟨by simp [heartCfg, beatCfg], by simp only [heartCfg, beatCfg]; norm_num, by simp [heartCfg, beatCfg]⟩
  have hk : ∃ k, 0 < k ∧ k < 136 ∧ beat.getD k false = true := by
    refine ⟨(List.range 136).findIdx (fun k => decide (0 < k) && beat.getD k false), ?_⟩
    decide +kernel
  obtain ⟨k, hk0, hk1, hk2⟩ := hk
  have hidx : heartCfg.idx[k]? = some k := by
    show (List.range 136)[k]? = some k
    rw [List.getElem?_range hk1]
  have hall : ∀ x ∈ [beat, beat], x.getD k false = true := by
    intro x hx
    simp only [List.mem_cons, List.not_mem_nil, or_false, or_self] at hx
    rw [hx]; exact hk2
  have hst : Steady heartCfg [beat, beat] k := by
    refine ⟨by simp, ?_⟩
    have hp : prob heartCfg [beat, beat] k = 1 := by
      unfold prob
      rw [chance_constant (flips_range S).2 (constant_of_all (flips_range S).1 (by simp) hall)]
      rfl
    rw [hp]
    simpa using S.threshold
  refine ⟨s, ⟨H, by simp [heartCfg], fun h => absurd h (by simp [heartCfg]), ⟨k, k, hidx, by omega, Or.inl hst⟩, ?_, ?_, ?_⟩, S,
    by simp [heartCfg], ⟨by simp, by simp [heartCfg], by simp [heartCfg]⟩, k, hidx, ?_, ?_⟩
  · intro i hi
    simpa [heartCfg, beatCfg] using hi
  · rw [hs]; rfl
  · exact ⟨10, by simp, by norm_num⟩
  · intro x hx
    exact hall x (by simpa using hx)
  · rw [List.getD_eq_getElem?_getD, List.getElem?_replicate, if_pos hk1]
    norm_num

end NR.C135

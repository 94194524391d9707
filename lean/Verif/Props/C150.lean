import Verif.Props.C149
import Verif.Props.C83
import Verif.Model.EntropyRun
/-
C150: a simulation in which the entropy decoder decodes every word, although the LDPC decoder on its own does not.
-/
namespace NR.C150
open NR NR.Spec NR.C131 NR.C149
open NR.C147 (errors Corrects wrong_iff)

variable {σ Λ : Type}

/-- How many bits of the model vary among the words labelled `l`: `v l i` is the value of bit `i` in all of them, if there is one. -/
def varying (c : CedCfg) (v : Int → Nat → Option Bool) (l : Int) : Nat := c.idx.countP fun i => v l i = none

/-- A word of the simulation: what is sent, which bits are inverted, its label and how many words with that label came before. The LDPC decoder
corrects `T` errors, after `enough` words the model is trusted. -/
structure Word (c : CedCfg) (v : Int → Nat → Option Bool) (code : List Bool → Prop) (N T enough : Nat) (tx : List Bool) (inv : List Nat) (l : Int)
    (before : Nat) : Prop where
  sent : code tx
  length : tx.length = N
  distinct : inv.Nodup
  inside : ∀ e ∈ inv, e < N
  fixed : ∀ i ∈ c.idx, ∀ b : Bool, v l i = some b → tx[i]? = some b
  letters : true ∈ bitsAt c.idx tx ∧ false ∈ bitsAt c.idx tx
  /-- Some bit is received as a zero. -/
  zero : false ∈ flipAt tx inv
  /-- While the classifier trains, the LDPC decoder works alone. -/
  training : l < 0 → inv.length ≤ T
  /-- The first words of a cluster: only errors at varying bits are already counted. -/
  early : 0 ≤ l → before < enough → varying c v l + inv.countP (fun i => i ∉ c.idx ∨ v l i ≠ none) ≤ T
  /-- Later words: any errors at fixed bits. -/
  late : 0 ≤ l → enough ≤ before → varying c v l + inv.countP (fun i => i ∉ c.idx) ≤ T

theorem log_le {p : ℝ} (h0 : 1 / 10 ^ 7 ≤ p) (h1 : p < 1 / 2) : Real.log ((1 - p) / p) ≤ 18 := by
  have hp : 0 < p := lt_of_lt_of_le (by norm_num) h0
  have h2 : (1 - p) / p ≤ 10 ^ 7 := by
    rw [div_le_iff₀ hp]
    have : (10 : ℝ) ^ 7 * (1 / 10 ^ 7) ≤ 10 ^ 7 * p := mul_le_mul_of_nonneg_left h0 (by positivity)
    rw [mul_one_div_cancel (by positivity)] at this
    linarith
  rw [Real.log_le_iff_le_exp (div_pos (by linarith) hp)]
  refine h2.trans ?_
  have he : (2.7 : ℝ) ≤ Real.exp 1 := by
    have := Real.exp_one_gt_d9
    linarith
  have : (Real.exp 1) ^ 18 = Real.exp 18 := by
    rw [← Real.exp_nat_mul]
    norm_num
  rw [← this]
  refine le_trans ?_ (pow_le_pow_left₀ (by norm_num) he 18)
  norm_num

theorem channel_at {p : ℝ} (h0 : 0 < p) (h1 : p < 1 / 2) (tx : List Bool) (inv : List Nat) {i : Nat} (hi : i < tx.length) :
    ((channelLlr p (flipAt tx inv)).getD i 0 < 0 ↔ (flipAt tx inv).getD i false = true) ∧
    |(channelLlr p (flipAt tx inv)).getD i 0| = Real.log ((1 - p) / p) := by
  obtain ⟨c1, c2⟩ := c83_channel p h0 h1 tx inv
  have hl : (channelLlr p (flipAt tx inv)).length = tx.length := by
    rw [← flipAt_length tx inv]
    simp [channelLlr, bscLlr]
  have hi' : i < (channelLlr p (flipAt tx inv)).length := by omega
  constructor
  · conv_rhs => rw [← c1]
    unfold hardBits
    rw [List.getD_eq_getElem?_getD, List.getD_eq_getElem?_getD, List.getElem?_map, List.getElem?_eq_getElem hi']
    simp
  · rw [List.getD_eq_getElem?_getD, List.getElem?_eq_getElem hi']
    exact c2 _ (List.getElem_mem hi')

/-- The bits that are wrong in the word with the hints. -/
theorem hinted_errors {c : CedCfg} (S : Sound c) (hf : 0 ≤ c.bitFlip) (hf2 : c.bitFlip < 1 / 2) (ht : 0 < c.threshold) (hs : 0 ≤ c.slope)
    {v : Int → Nat → Option Bool} {code : List Bool → Prop} {N T enough : Nat} {tx : List Bool} {inv : List Nat} {l : Int} {before : Nat}
    (hx : Word c v code N T enough tx inv l before) (hl : 0 ≤ l) {p : ℝ} (hp : 1 / 10 ^ 7 ≤ p) (hp2 : p < 1 / 2)
    (D : List (List Bool)) (hD : ∀ d ∈ D, ∀ k i b, c.idx[k]? = some i → v l i = some b → d.getD k false = b)
    (hlen : enough ≤ before → enough ≤ D.length) (he2 : 2 ≤ enough) (hec : c.center ≤ enough)
    (hused : ∃ i ∈ c.idx, i ≠ 0 ∧ v l i ≠ none) :
    errors tx (hinted c D (channelLlr p (flipAt tx inv))) ≤ T := by
  classical
  have hp0 : 0 < p := lt_of_lt_of_le (by norm_num) hp
  have hcl : (channelLlr p (flipAt tx inv)).length = tx.length := by
    rw [← flipAt_length tx inv]
    simp [channelLlr, bscLlr]
  -- the hint at a fixed bit
  have hfix : D ≠ [] → ∀ i ∈ c.idx, ∀ b : Bool, v l i = some b →
      hint c D i = (if b then -1 else 1) * (entTrust c D.length * Real.log ((floatEps + 1) / floatEps)) := by
    intro hne i hi b hb
    have hconst : ∀ (i : Nat) (b : Bool), i ∈ c.idx → v l i = some b → Constant c.bitFlip D (c.idx.idxOf i) b := fun i b hi hb =>
      constant_of_all hf hne fun d hd => hD d hd _ i b (List.getElem?_idxOf hi) hb
    obtain ⟨i', hi', h0, hv⟩ := hused
    obtain ⟨b', hb'⟩ := Option.ne_none_iff_exists'.1 hv
    have hu : Used c D := ⟨c.idx.idxOf i', i', List.getElem?_idxOf hi', h0, steady_constant hf2 ht (hconst i' b' hi' hb')⟩
    unfold hint
    rw [if_pos ⟨hne, hu, hi⟩, push_constant hf2 ht (hconst i b hi hb)]
  have htrust : 0 ≤ entTrust c D.length * Real.log ((floatEps + 1) / floatEps) :=
    mul_nonneg (trust_nonneg c D.length) (by have := log_eps; linarith)
  have hwrongIff : ∀ i, i < tx.length → (¬ ((channelLlr p (flipAt tx inv)).getD i 0 < 0 ↔ tx.getD i false = true) ↔ i ∈ inv) := by
    intro i hi
    rw [(channel_at hp0 hp2 tx inv hi).1, flipAt_getD tx inv hi]
    by_cases h : i ∈ inv <;> cases tx.getD i false <;> simp [h]
  -- where the word with the hints is wrong
  have hcases : ∀ i, i < tx.length → (hardWord (hinted c D (channelLlr p (flipAt tx inv))))[i]? ≠ tx[i]? →
      (i ∈ c.idx ∧ v l i = none) ∨ (i ∈ inv ∧ (i ∉ c.idx ∨ v l i ≠ none)) ∧ (enough ≤ before → i ∉ c.idx) := by
    intro i hi hw
    rw [wrong_iff ((hinted_length c D _).trans hcl) hi, hinted_getD c D (by omega)] at hw
    by_cases hm : i ∈ c.idx
    · rcases hv : v l i with _ | b
      · exact .inl ⟨hm, rfl⟩
      · right
        have hb : tx.getD i false = b := by rw [List.getD_eq_getElem?_getD, hx.fixed i hm b hv]; rfl
        by_cases hne : D = []
        · have h0 : hint c D i = 0 := by unfold hint; rw [if_neg (by simp [hne])]
          rw [h0, add_zero] at hw
          refine ⟨⟨(hwrongIff i hi).1 hw, .inr (by simp)⟩, fun hen => ?_⟩
          have := hlen hen
          rw [hne] at this
          simp at this
          omega
        · rw [hfix hne i hm b hv] at hw
          have hlate : ¬ enough ≤ before := by
            intro hen
            have htr : 1 / 2 ≤ entTrust c D.length := by
              have h2 : enough ≤ D.length := hlen hen
              unfold entTrust
              rw [if_pos S.learns, if_neg (by omega)]
              have hcd : c.center ≤ (D.length : ℝ) := hec.trans (by exact_mod_cast h2)
              have : Real.exp (-((D.length : ℝ) - c.center) * c.slope) ≤ 1 := by
                rw [Real.exp_le_one_iff]
                exact mul_nonpos_of_nonpos_of_nonneg (by linarith) hs
              have hq := Real.exp_pos (-((D.length : ℝ) - c.center) * c.slope)
              exact one_div_le_one_div_of_le (by linarith) (by linarith)
            have hT : 18 < entTrust c D.length * Real.log ((floatEps + 1) / floatEps) := by
              have := mul_lt_mul_of_pos_left log_eps (show 0 < entTrust c D.length by linarith)
              linarith
            have ha := (channel_at hp0 hp2 tx inv hi).2.le.trans (log_le hp hp2)
            rw [abs_le] at ha
            apply hw
            rw [hb]
            cases b
            · simp only [Bool.false_eq_true, if_false, iff_false, not_lt, one_mul]
              linarith [ha.1]
            · simp only [if_true, iff_true, neg_mul, one_mul]
              linarith [ha.2]
          refine ⟨⟨(hwrongIff i hi).1 fun h => hw ?_, .inr (by simp)⟩, fun hen => absurd hen hlate⟩
          rw [hb] at h ⊢
          cases b
          · simp only [Bool.false_eq_true, if_false, iff_false, not_lt, one_mul] at h ⊢
            linarith
          · simp only [if_true, iff_true, neg_mul, one_mul] at h ⊢
            linarith
    · right
      have h0 : hint c D i = 0 := by unfold hint; rw [if_neg (fun h => hm h.2.2)]
      rw [h0, add_zero] at hw
      exact ⟨⟨(hwrongIff i hi).1 hw, .inl hm⟩, fun _ => hm⟩
  have hV : (c.idx.toFinset.filter fun i => v l i = none).card ≤ varying c v l := by
    unfold varying
    rw [List.countP_eq_length_filter]
    refine le_trans (Finset.card_le_card ?_) (List.toFinset_card_le _)
    intro i hi
    simp only [Finset.mem_filter, List.mem_toFinset, List.mem_filter, decide_eq_true_eq] at hi ⊢
    exact hi
  have hI : ∀ (q : Nat → Prop) [DecidablePred q], (inv.toFinset.filter q).card ≤ inv.countP fun i => q i := by
    intro q _
    rw [List.countP_eq_length_filter]
    refine le_trans (Finset.card_le_card ?_) (List.toFinset_card_le _)
    intro i hi
    simp only [Finset.mem_filter, List.mem_toFinset, List.mem_filter, decide_eq_true_eq] at hi ⊢
    exact hi
  unfold errors
  by_cases hen : enough ≤ before
  · have hsub : ((Finset.range tx.length).filter fun i => (hardWord (hinted c D (channelLlr p (flipAt tx inv))))[i]? ≠ tx[i]?) ⊆
        (c.idx.toFinset.filter fun i => v l i = none) ∪ inv.toFinset.filter fun i => i ∉ c.idx := by
      intro i h
      rw [Finset.mem_filter, Finset.mem_range] at h
      rw [Finset.mem_union, Finset.mem_filter, Finset.mem_filter, List.mem_toFinset, List.mem_toFinset]
      rcases hcases i h.1 h.2 with h3 | ⟨h3, h4⟩
      · exact .inl h3
      · exact .inr ⟨h3.1, h4 hen⟩
    have := hI fun i => i ∉ c.idx
    have h2 := hx.late hl hen
    refine (Finset.card_le_card hsub).trans ((Finset.card_union_le _ _).trans ?_)
    omega
  · have hsub : ((Finset.range tx.length).filter fun i => (hardWord (hinted c D (channelLlr p (flipAt tx inv))))[i]? ≠ tx[i]?) ⊆
        (c.idx.toFinset.filter fun i => v l i = none) ∪ inv.toFinset.filter fun i => i ∉ c.idx ∨ v l i ≠ none := by
      intro i h
      rw [Finset.mem_filter, Finset.mem_range] at h
      rw [Finset.mem_union, Finset.mem_filter, Finset.mem_filter, List.mem_toFinset, List.mem_toFinset]
      rcases hcases i h.1 h.2 with h3 | ⟨h3, h4⟩
      · exact .inl h3
      · exact .inr h3
    have := hI fun i => i ∉ c.idx ∨ v l i ≠ none
    have h2 := hx.early hl (by omega)
    refine (Finset.card_le_card hsub).trans ((Finset.card_union_le _ _).trans ?_)
    omega

theorem outputs_entropy (c : CedCfg) (cls : Labeler σ) (ldpc : Ldpc Λ) (p : ℝ) : ∀ (words : List (List Bool × List Nat)) (s : Ced σ Λ),
    (∀ (j : Nat) (w : List Bool × List Nat), words[j]? = some w → ∃ st r,
      (Ced.run c cls ldpc s (words.map fun w => channelLlr p (flipAt w.1 w.2))).2[j]? = some st ∧ st.result = .ok r ∧ r.success = true ∧
        r.estimate = w.1) →
    outputs (entropy c cls ldpc) s (simInputs p words) = (words.map fun w => (w.1, true)).map .ok
  | [], s, _ => rfl
  | w :: words, s, h => by
    obtain ⟨st, r, h1, h2, h3, h4⟩ := h 0 w rfl
    have hst : s.decode c cls ldpc (channelLlr p (flipAt w.1 w.2)) = st := by
      simpa [Ced.run] using h1
    have ih := outputs_entropy c cls ldpc p words st.state (fun j w' hw => by
      obtain ⟨st', r', q⟩ := h (j + 1) w' (by simpa using hw)
      refine ⟨st', r', ?_, q.2⟩
      have := q.1
      simp only [List.map_cons, Ced.run, List.getElem?_cons_succ, hst] at this
      exact this)
    unfold simInputs at ih ⊢
    simp only [List.map_cons, outputs, entropy, hst, h2, h3, h4] at ih ⊢
    rw [← ih]

theorem outputs_alone (ldpc : Ldpc Λ) : ∀ (l : List (List ℝ × Option (List Nat))) (s : Λ),
    ∃ o : List (List Bool × Bool), outputs (alone ldpc) s l = o.map .ok ∧ ∀ x ∈ o, ∃ s w, x.1 = (ldpc s (.llr w)).2.estimate
  | [], s => ⟨[], rfl, by simp⟩
  | x :: l, s => by
    obtain ⟨o, h1, h2⟩ := outputs_alone ldpc l (ldpc s (.llr x.1)).1
    refine ⟨((ldpc s (.llr x.1)).2.estimate, (ldpc s (.llr x.1)).2.success) :: o, ?_, ?_⟩
    · simp only [outputs, List.map_cons, alone]
      rw [← h1]
    · intro y hy
      rcases List.mem_cons.1 hy with rfl | hy
      · exact ⟨s, x.1, rfl⟩
      · exact h2 y hy

theorem exact_self (l : List (List Bool)) : exact l l = l.length ∧ wrongBits l l = 0 := by
  induction l with
  | nil => exact ⟨rfl, rfl⟩
  | cons a l ih =>
    obtain ⟨i1, i2⟩ := ih
    unfold exact wrongBits at *
    have hd : diffCount a a = 0 := by simp [diffCount]
    constructor
    · rw [List.zip_cons_cons, List.countP_cons, i1]
      simp
    · rw [List.zip_cons_cons, List.map_cons, List.sum_cons, i2, hd]

/-- **C150.** A point of the simulation: the words of each label have fixed bits, and the LDPC decoder corrects `T` errors. Let `T` suffice for the
varying bits of the model plus the errors outside the model, and for the first words of each label for the errors at fixed bits as well. Then the
run reports success rate 1 and bit error rate 0 for the entropy decoder, however many errors later words have at fixed bits, and the recover rate
is 1 if the LDPC decoder alone failed on any word. -/
theorem c150_rates {c : CedCfg} (S : Sound c) (hk : c.kind = .logSpa) (hclip : 0 < c.clipping) (hf : 0 ≤ c.bitFlip) (hf2 : c.bitFlip < 1 / 2)
    (ht : 0 < c.threshold) (hs : 0 ≤ c.slope) (cls : Labeler σ) (ldpc : Ldpc Λ) (cs : σ) (l1 l2 : Λ) (code : List Bool → Prop)
    (N T enough : Nat) (hN : 0 < N) (hidx : ∀ i ∈ c.idx, i < N) (hcor : Corrects ldpc code T) (hest : ∀ s inp, (ldpc s inp).2.estimate.length = N)
    (he2 : 2 ≤ enough) (hec : c.center ≤ enough) (hwin : ∀ w, c.window = some w → enough ≤ w)
    (p : ℚ) (hp : 1 / 10 ^ 7 ≤ p) (hp2 : p < 1 / 2) (v : Int → Nat → Option Bool) (hused : ∀ l, 0 ≤ l → ∃ i ∈ c.idx, i ≠ 0 ∧ v l i ≠ none)
    (words : List (List Bool × List Nat)) (hne : words ≠ []) (labels : List Int) (hlt : ∀ l ∈ labels, l < c.nClusters)
    (hlab : (asks c cls cs (-1) (words.map fun w => channelLlr p (flipAt w.1 w.2))).2 = labels.map .ok)
    (hword : ∀ (j : Nat) (w : List Bool × List Nat) (l : Int), words[j]? = some w → labels[j]? = some l →
      Word c v code N T enough w.1 w.2 l ((labels.take j).count l)) :
    ∃ r, simStep (alone ldpc) (entropy c cls ldpc) l1 (Ced.new c.nClusters cs l2) N p words = .ok r ∧ r.number = words.length ∧
      r.rect.success = 1 ∧ r.rect.ber = 0 ∧ r.recover = if r.pure.success < 1 then 1 else 0 := by
  have hpr : (1 : ℝ) / 10 ^ 7 ≤ (p : ℝ) := by
    have : ((1 / 10 ^ 7 : ℚ) : ℝ) ≤ (p : ℝ) := Rat.cast_le.2 hp
    simpa using this
  have hpr2 : (p : ℝ) < 1 / 2 := by
    have : ((p : ℚ) : ℝ) < ((1 / 2 : ℚ) : ℝ) := by exact_mod_cast hp2
    simpa using this
  have hp0 : (0 : ℝ) < p := lt_of_lt_of_le (by norm_num) hpr
  have hll : labels.length = words.length := by
    have := congrArg List.length hlab
    rw [asks_length, List.length_map, List.length_map] at this
    exact this.symm
  have hW : ∀ (j : Nat) (w : List Bool × List Nat), words[j]? = some w → ∃ l, labels[j]? = some l ∧
      Word c v code N T enough w.1 w.2 l ((labels.take j).count l) := by
    intro j w hw
    have hj : j < labels.length := by
      rw [hll]
      exact (List.getElem?_eq_some_iff.1 hw).1
    exact ⟨_, List.getElem?_eq_getElem hj, hword j w _ hw (List.getElem?_eq_getElem hj)⟩
  have hclen : ∀ w : List Bool × List Nat, (channelLlr p (flipAt w.1 w.2)).length = w.1.length := by
    intro w
    rw [← flipAt_length w.1 w.2]
    simp [channelLlr, bscLlr]
  have key : ∀ (j : Nat) (w : List Bool × List Nat), words[j]? = some w → ∃ st r,
      (Ced.run c cls ldpc (Ced.new c.nClusters cs l2) (words.map fun w => channelLlr p (flipAt w.1 w.2))).2[j]? = some st ∧
        st.result = .ok r ∧ r.success = true ∧ r.estimate = w.1 := by
    intro j w hw
    obtain ⟨l, hl, _⟩ := hW j w hw
    obtain ⟨st, r, h1, h2, h3, h4, _⟩ := c149_told S hk hclip cls ldpc cs l2 code T hcor
      (fun s inp i hi => by rw [hest]; exact hidx i hi) (words.map fun w => channelLlr p (flipAt w.1 w.2)) labels (words.map Prod.fst) hlab hlt
      (by simp) (by
        intro j x u hx hu
        rw [List.getElem?_map] at hx hu
        obtain ⟨w, hw, rfl⟩ := Option.map_eq_some_iff.1 hx
        rw [hw] at hu
        have hu := (Option.some.inj hu).symm
        subst hu
        obtain ⟨l, _, W⟩ := hW j w hw
        refine ⟨W.sent, hclen w, fun i hi => by rw [hclen, W.length]; exact hidx i hi, W.letters, ?_⟩
        obtain ⟨i, hi, h0⟩ := List.getElem_of_mem W.zero
        have hi' : i < w.1.length := by rw [← flipAt_length w.1 w.2]; exact hi
        obtain ⟨a1, a2⟩ := channel_at hp0 hpr2 w.1 w.2 hi'
        refine ⟨_, List.getElem_mem (show i < (channelLlr p (flipAt w.1 w.2)).length by rw [hclen]; exact hi'), ?_⟩
        rw [List.getD_eq_getElem?_getD, List.getElem?_eq_getElem (by rw [hclen]; exact hi')] at a1 a2
        rw [List.getD_eq_getElem?_getD, List.getElem?_eq_getElem hi, h0] at a1
        simp only [Option.getD_some, Bool.false_eq_true, iff_false, not_lt] at a1 a2
        have hpos : 0 < Real.log ((1 - (p : ℝ)) / p) := Real.log_pos (by rw [lt_div_iff₀ hp0]; linarith)
        rw [abs_of_nonneg a1] at a2
        rw [a2]
        exact hpos)
      (by
        intro j x u l hx hu hl
        rw [List.getElem?_map] at hx hu
        obtain ⟨w, hw, rfl⟩ := Option.map_eq_some_iff.1 hx
        rw [hw] at hu
        have hu := (Option.some.inj hu).symm
        subst hu
        have W := hword j w l hw hl
        split
        · rename_i hneg
          refine le_trans ?_ (W.training hneg)
          unfold errors
          refine le_trans (Finset.card_le_card (t := w.2.toFinset) ?_) (List.toFinset_card_le _)
          intro i h
          rw [Finset.mem_filter, Finset.mem_range] at h
          rw [List.mem_toFinset]
          have := h.2
          rw [wrong_iff (hclen w) h.1, (channel_at hp0 hpr2 w.1 w.2 h.1).1, flipAt_getD w.1 w.2 h.1] at this
          by_contra hc
          rw [if_neg hc] at this
          exact this Iff.rfl
        · rename_i hnn
          have hnn := not_lt.1 hnn
          refine hinted_errors S hf hf2 ht hs W hnn hpr hpr2 _ ?_ ?_ he2 hec (hused l hnn)
          · intro d hd k i b hki hv
            unfold earlier at hd
            have hd : d ∈ ((labels.zip (words.map Prod.fst)).take j).filterMap fun p => if p.1 = l then some (bitsAt c.idx p.2) else none := by
              unfold keep at hd
              split at hd
              · exact hd
              · exact List.mem_of_mem_drop hd
            obtain ⟨q, hq, he⟩ := List.mem_filterMap.1 hd
            obtain ⟨a, ha⟩ := List.getElem?_of_mem (List.mem_of_mem_take hq)
            rw [List.getElem?_zip_eq_some] at ha
            obtain ⟨ha1, ha2⟩ := ha
            rw [List.getElem?_map] at ha2
            obtain ⟨w', hw', e'⟩ := Option.map_eq_some_iff.1 ha2
            have W' := hword a w' q.1 hw' ha1
            split at he
            · rename_i hql
              rw [← Option.some.inj he, ← e', List.getD_eq_getElem?_getD,
                C147.bitsAt_get (fun i hi => by rw [W'.length]; exact hidx i hi) hki,
                W'.fixed i (List.mem_of_getElem? hki) b (by rw [hql]; exact hv)]
              rfl
            · cases he
          · intro hen
            unfold earlier
            have hcount : ((labels.zip (words.map Prod.fst)).take j).filterMap (fun p => if p.1 = l then some (bitsAt c.idx p.2) else none) =
                (((labels.zip (words.map Prod.fst)).take j).filter fun p => p.1 = l).map fun p => bitsAt c.idx p.2 := by
              generalize (labels.zip (words.map Prod.fst)).take j = z
              induction z with
              | nil => rfl
              | cons a z ih =>
                by_cases h : a.1 = l
                · simp [h, ih]
                · simp [h, ih]
            have hlen2 : (((labels.zip (words.map Prod.fst)).take j).filter fun p => p.1 = l).length = (labels.take j).count l := by
              rw [← List.countP_eq_length_filter, List.count, List.zip, List.take_zipWith]
              have hsame : (labels.take j).length = ((words.map Prod.fst).take j).length := by
                rw [List.length_take, List.length_take, List.length_map, hll]
              generalize labels.take j = a at hsame
              generalize (words.map Prod.fst).take j = b at hsame
              induction a generalizing b with
              | nil => rfl
              | cons x a ih =>
                cases b with
                | nil => simp at hsame
                | cons y b =>
                  rw [List.zipWith_cons_cons, List.countP_cons, List.countP_cons, ih b (by simpa using hsame)]
                  simp
            refine (C147.keep_length (n := enough) (r := 0) ?_ (by positivity) fun k hk => ⟨hwin k hk, by positivity⟩).1
            rw [hcount, List.length_map, hlen2]
            exact hen)
      j w.1 l (by rw [List.getElem?_map, hw]; rfl) hl
    exact ⟨st, r, h1, h2, h3, h4⟩
  obtain ⟨oa, ha1, ha2⟩ := outputs_alone ldpc (simInputs p words) l1
  have hb := outputs_entropy c cls ldpc p words _ key
  have hlen : ∀ w ∈ words, w.1.length = N ∧ w.2.Nodup ∧ ∀ e ∈ w.2, e < N := by
    intro w hw
    obtain ⟨j, hj⟩ := List.getElem?_of_mem hw
    obtain ⟨l, _, W⟩ := hW j w hj
    exact ⟨W.length, W.distinct, W.inside⟩
  obtain ⟨r, r1, _, r3, r4, r5, _, r7, r8, r9⟩ := c83_step (alone ldpc) (entropy c cls ldpc) l1 (Ced.new c.nClusters cs l2) N N p words hne hN hlen
    oa (words.map fun w => (w.1, true)) ha1 hb
    (by
      intro o ho
      obtain ⟨s, w, h⟩ := ha2 o ho
      rw [h, hest])
    (by
      intro o ho
      obtain ⟨w, hw, rfl⟩ := List.mem_map.1 ho
      exact (hlen w hw).1)
  have hfst : (words.map fun w => (w.1, true)).map Prod.fst = words.map Prod.fst := by simp [Function.comp_def]
  obtain ⟨e1, e2⟩ := exact_self (words.map Prod.fst)
  rw [hfst, e1, List.length_map] at r5 r8
  rw [hfst, e2] at r7
  have hpos : (0 : ℚ) < words.length := by exact_mod_cast List.length_pos_iff.2 hne
  have hNq : (0 : ℚ) < N := by exact_mod_cast hN
  refine ⟨r, r1, r3, ?_, ?_, ?_⟩
  · exact mul_right_cancel₀ (ne_of_gt hpos) (by rw [r5, one_mul])
  · have := r7
    rw [Nat.cast_zero] at this
    rcases mul_eq_zero.1 this with h | h
    · exact h
    · exact absurd h (ne_of_gt (mul_pos hpos hNq))
  · by_cases hfail : exact (oa.map Prod.fst) (words.map Prod.fst) < words.length
    · have hq : ((exact (oa.map Prod.fst) (words.map Prod.fst) : ℕ) : ℚ) < words.length := by exact_mod_cast hfail
      rw [if_pos hfail] at r8
      rw [if_pos]
      · refine mul_right_cancel₀ (b := (words.length : ℚ) - exact (oa.map Prod.fst) (words.map Prod.fst)) (by linarith) ?_
        rw [r8, one_mul]
      · by_contra hc
        have := mul_le_mul_of_nonneg_right (not_lt.1 hc) hpos.le
        rw [r4, one_mul] at this
        linarith
    · rw [if_neg]
      · exact r9 (not_lt.1 hfail)
      · intro hc
        have := mul_lt_mul_of_pos_right hc hpos
        rw [r4, one_mul] at this
        exact hfail (by exact_mod_cast this)

/-! ### A case that meets the hypotheses -/

/-- The words `10??` of the demonstration: two received right, the third with both fixed bits wrong. The LDPC decoder corrects nothing. -/
example : ∃ r, simStep (alone plain) (entropy demo noCls plain) () (Ced.new 1 () ()) 4 (1 / 10)
      [([true, false, true, false], []), ([true, false, true, false], []), ([true, false, false, false], [0, 1])] = .ok r ∧ r.number = 3 ∧
    r.rect.success = 1 ∧ r.rect.ber = 0 ∧ r.recover = if r.pure.success < 1 then 1 else 0 := by
  have hW : ∀ (b b' : Bool) (inv : List Nat) (n : Nat), inv.Nodup → (∀ e ∈ inv, e < 2) → false ∈ flipAt [true, false, b, b'] inv → (n < 2 → inv = []) →
      Word demo (fun _ i => if i = 0 then some true else if i = 1 then some false else none) (fun x => x.length = 4) 4 0 2 [true, false, b, b'] inv 0
        n := by
    intro b b' inv n hn hi hz he
    have hidx : ∀ i, i ∈ demo.idx ↔ i = 0 ∨ i = 1 := by simp [demo]
    refine ⟨rfl, rfl, hn, fun e h => by have := hi e h; omega, ?_, by simp [demo, bitsAt], hz, fun h => absurd h (by decide), ?_, ?_⟩
    · intro i hi v hv
      rcases (hidx i).1 hi with rfl | rfl
      · simpa using hv
      · simpa using hv
    · intro _ h
      rw [he h]
      decide
    · intro _ _
      have : inv.countP (fun i => i ∉ demo.idx) = 0 := by
        rw [List.countP_eq_zero]
        intro e h
        have := hi e h
        simp only [decide_eq_true_eq, not_not, hidx]
        omega
      rw [this]
      decide
  exact c150_rates (c := demo) demo_sound rfl (by norm_num [demo]) (by norm_num [demo]) (by norm_num [demo]) (by norm_num [demo]) (by norm_num [demo])
    noCls plain () () () (fun x => x.length = 4) 4 0 2 (by decide) (by simp [demo]) plain_corrects
    (by
      intro s inp
      cases inp with
      | llr w =>
        show (if w.length = 4 then hardWord w else List.replicate 4 false).length = 4
        split
        · rename_i h
          unfold hardWord
          rw [List.length_map, h]
        · simp
      | _ => simp [plain])
    le_rfl (by norm_num [demo]) (by simp [demo]) (1 / 10) (by norm_num) (by norm_num)
    (fun _ i => if i = 0 then some true else if i = 1 then some false else none) (fun l _ => ⟨1, by simp [demo], by decide, by simp⟩) _ (by simp)
    [0, 0, 0] (by simp [demo]) (by simp [asks, pickLabel, demo]) (by
      intro j w l h1 h2
      match j with
      | 0 => cases h1; cases h2; exact hW _ _ _ _ (by simp) (by simp) (by decide) (fun _ => rfl)
      | 1 => cases h1; cases h2; exact hW _ _ _ _ (by simp) (by simp) (by decide) (fun _ => rfl)
      | 2 => cases h1; cases h2; exact hW _ _ _ _ (by simp) (by simp) (by decide) (fun h => absurd h (by decide))
      | j + 3 => cases h1)

end NR.C150

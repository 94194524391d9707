import Verif.Props.C157
import Verif.Model.DecodingRuns
/-
C158: how many words the DUDE decoder needs before it overrules a bit of a given magnitude, and over the binary symmetric channel.
-/
namespace NR.C158
open NR NR.Spec NR.C137

variable {σ Λ : Type}

theorem trust_lt_one (n : Nat) (center slope : ℝ) : trust n center slope < 1 := by
  unfold trust
  split
  · exact one_pos
  · rw [div_lt_one (by positivity)]
    have := Real.exp_pos (-((n : ℝ) - center) * slope)
    linarith

/-- What a doubt means for the counts. -/
theorem doubt_odds {f : ℝ} (h0 : 0 ≤ f) (hf : f < 1 / 2) (a b : ℕ) {E : ℝ} (hE : 1 ≤ E)
    (h : E < (doubt f a b + 2 ^ (-52 : ℤ)) / (1 - doubt f a b + 2 ^ (-52 : ℤ))) : E * (1 - 2 * f) < f * a := by
  have heps : (0 : ℝ) < 2 ^ (-52 : ℤ) := by positivity
  obtain ⟨d0, d1⟩ := doubt_bounds h0 hf a b
  have hd : 0 < 1 - 2 * f := by linarith
  have hg : 0 < 1 - f := by linarith
  rw [lt_div_iff₀ (by linarith)] at h
  have h2 : E * (1 - doubt f a b) < doubt f a b := by nlinarith
  unfold doubt at h2
  have a1 : ∀ x : ℝ, 1 ≤ max 1 x := fun x => le_max_left _ _
  have y1 := a1 (((1 - f) * (b : ℝ) - f * a) / (1 - 2 * f))
  have x0 : max 1 (((1 - f) * (a : ℝ) - f * b) / (1 - 2 * f)) ≤ max 1 ((1 - f) * a / (1 - 2 * f)) := by
    refine max_le_max le_rfl (div_le_div_of_nonneg_right ?_ hd.le)
    have : 0 ≤ f * (b : ℝ) := mul_nonneg h0 (Nat.cast_nonneg _)
    linarith
  have x1 := a1 (((1 - f) * (a : ℝ) - f * b) / (1 - 2 * f))
  generalize max 1 (((1 - f) * (a : ℝ) - f * b) / (1 - 2 * f)) = X at *
  generalize max 1 (((1 - f) * (b : ℝ) - f * a) / (1 - 2 * f)) = Y at *
  have p1 : 0 ≤ X * f := mul_nonneg (by linarith) h0
  have p2 : 0 < Y * (1 - f) := mul_pos (by linarith) hg
  have hden : 0 < X * f + Y * (1 - f) := by linarith
  have e : 1 - X * f / (X * f + Y * (1 - f)) = Y * (1 - f) / (X * f + Y * (1 - f)) := by
    field_simp
    ring
  rw [e, ← mul_div_assoc, div_lt_div_iff_of_pos_right hden] at h2
  have h3 : E * (1 - f) < X * f := by
    have : E * (1 - f) ≤ E * (Y * (1 - f)) := by
      refine mul_le_mul_of_nonneg_left ?_ (by linarith)
      nlinarith
    linarith
  have h4 : E * (1 - f) < max 1 ((1 - f) * a / (1 - 2 * f)) * f := lt_of_lt_of_le h3 (mul_le_mul_of_nonneg_right x0 h0)
  rcases max_choice 1 ((1 - f) * (a : ℝ) / (1 - 2 * f)) with hm | hm
  · rw [hm] at h4
    nlinarith
  · rw [hm, div_mul_eq_mul_div, lt_div_iff₀ hd] at h4
    have : (1 - f) * (E * (1 - 2 * f)) < (1 - f) * (f * a) := by nlinarith
    exact lt_of_mul_lt_mul_left this hg.le

theorem inContext_le (k : Nat) (past : List Bool) (v : Bool) : inContext k past v ≤ past.length - k := by
  unfold inContext
  refine (List.countP_mono_left (q := fun j => decide (k ≤ j)) fun j _ h => ?_).trans ?_
  · simp only [decide_eq_true_eq] at h ⊢
    exact h.1
  · rw [C157.countP_card]
    have : ((Finset.range past.length).filter fun j => k ≤ j) = Finset.Ico k past.length := by
      ext j
      simp only [Finset.mem_filter, Finset.mem_range, Finset.mem_Ico]
      exact and_comm
    rw [this, Nat.card_Ico]

open Classical in
/-- **C158.** A bit received with magnitude `|v|` is overruled only if the other value was received after the same `k` values more than
`exp |v| (1 - 2 f) / f` times; so not before the cluster has more than `k` plus this number of words. -/
theorem c158_needed {c : DudeCfg} {cls : Labeler σ} {ldpc : Ldpc Λ} {words : List (List ℝ)} {ch : List ℝ} {l : Nat} {out : DudeOut}
    {own : List (List ℝ)} (C : Case c cls ldpc words ch l out own) (hx : ∃ x ∈ ch, x ≠ 0) (i : Nat) (hi : i < c.modelLength)
    (h : out.denoised.getD i false ≠ decide (ch.getD i 0 < 0)) :
    Real.exp |ch.getD i 0| * (1 - 2 * c.bitFlip) < c.bitFlip * inContext c.context (bitHistory i own) (!decide (ch.getD i 0 < 0)) ∧
    Real.exp |ch.getD i 0| * (1 - 2 * c.bitFlip) < c.bitFlip * ((own.length - c.context : ℕ) : ℝ) := by
  have hlen : (bitHistory i own).length = own.length := by simp [bitHistory]
  have hle : |ch.getD i 0| ≤ against c (bitHistory i own) (decide (ch.getD i 0 < 0)) := by
    rcases (c137_overruled C hx i hi).2.1 h with h | ⟨_, h⟩
    · exact h.le
    · exact h.le
  have hpos : 0 < against c (bitHistory i own) (decide (ch.getD i 0 < 0)) := by
    rcases (c137_overruled C hx i hi).2.1 h with h | ⟨h1, h2⟩
    · exact lt_of_le_of_lt (abs_nonneg _) h
    · rw [← h2]; exact abs_pos.2 h1.ne
  obtain ⟨hk, _, _, _⟩ := c137_evidence C hx i hi h
  have first : Real.exp |ch.getD i 0| * (1 - 2 * c.bitFlip) < c.bitFlip * inContext c.context (bitHistory i own) (!decide (ch.getD i 0 < 0)) := by
    refine doubt_odds C.flip0 C.flip _ (inContext c.context (bitHistory i own) (decide (ch.getD i 0 < 0)) + 1)
      (Real.one_le_exp (abs_nonneg _)) ?_
    unfold against doubtOf at hle hpos
    rw [if_neg (by rw [hlen]; omega)] at hle hpos
    have ht := trust_nonneg ((bitHistory i own).length + 1) c.center c.slope
    have ht1 := trust_lt_one ((bitHistory i own).length + 1) c.center c.slope
    obtain ⟨d0, d1⟩ := doubt_bounds C.flip0 C.flip (inContext c.context (bitHistory i own) (!decide (ch.getD i 0 < 0)))
      (inContext c.context (bitHistory i own) (decide (ch.getD i 0 < 0)) + 1)
    have heps : (0 : ℝ) < 2 ^ (-52 : ℤ) := by positivity
    have hq : 0 < (doubt c.bitFlip (inContext c.context (bitHistory i own) (!decide (ch.getD i 0 < 0)))
        (inContext c.context (bitHistory i own) (decide (ch.getD i 0 < 0)) + 1) + 2 ^ (-52 : ℤ)) / (1 - doubt c.bitFlip (inContext c.context
        (bitHistory i own) (!decide (ch.getD i 0 < 0))) (inContext c.context (bitHistory i own) (decide (ch.getD i 0 < 0)) + 1) + 2 ^ (-52 : ℤ)) :=
      div_pos (by linarith) (by linarith)
    rw [← Real.lt_log_iff_exp_lt hq]
    have hlog := lt_of_not_ge fun hl => absurd hpos (not_lt.2 (mul_nonpos_of_nonneg_of_nonpos ht hl))
    nlinarith
  refine ⟨first, lt_of_lt_of_le first (mul_le_mul_of_nonneg_left ?_ C.flip0)⟩
  have := inContext_le c.context (bitHistory i own) (!decide (ch.getD i 0 < 0))
  rw [hlen] at this
  exact_mod_cast this

/-! ### The binary symmetric channel -/

theorem channel_get (p : ℝ) (rx : List Bool) (i : Nat) (hi : i < rx.length) :
    (channelLlr p rx).getD i 0 = if rx.getD i false then -Real.log ((1 - p) / p) else Real.log ((1 - p) / p) := by
  unfold channelLlr bscLlr
  rw [List.getD_eq_getElem?_getD, List.getElem?_map, List.getElem?_map, List.getElem?_eq_getElem hi, List.getD_eq_getElem?_getD,
    List.getElem?_eq_getElem hi]
  cases h : rx[i] <;> simp

theorem log_pos_of {p : ℝ} (h0 : 0 < p) (h : p < 1 / 2) : 0 < Real.log ((1 - p) / p) :=
  Real.log_pos (by rw [lt_div_iff₀ h0]; linarith)

theorem channel_length (p : ℝ) (rx : List Bool) : (channelLlr p rx).length = rx.length := by simp [channelLlr, bscLlr]

/-- **C158.** Over the binary symmetric channel whose flip probability `p` the decoder is told, as in the simulation: as long as the cluster
has not more than `k + (1 - p) (1 - 2 p) / p²` words, no bit is overruled. The bits handed to the LDPC decoder are the bits received. -/
theorem c158_bsc {c : DudeCfg} {cls : Labeler σ} {ldpc : Ldpc Λ} {words : List (List ℝ)} {rx : List Bool} {l : Nat} {out : DudeOut}
    {own : List (List ℝ)} (C : Case c cls ldpc words (channelLlr c.bitFlip rx) l out own) (hp : 0 < c.bitFlip)
    (hn : (own.length : ℝ) ≤ c.context + (1 - c.bitFlip) * (1 - 2 * c.bitFlip) / c.bitFlip ^ 2) : out.denoised = rx := by
  classical
  have hf := C.flip
  have hL := log_pos_of hp hf
  have hrl := channel_length c.bitFlip rx
  have hlong := C.longer
  have hm := C.model
  have h0 : 0 < rx.length := by omega
  have hx : ∃ x ∈ channelLlr c.bitFlip rx, x ≠ 0 := by
    refine ⟨(channelLlr c.bitFlip rx).getD 0 0, ?_, ?_⟩
    · rw [List.getD_eq_getElem?_getD, List.getElem?_eq_getElem (by omega)]
      exact List.getElem_mem _
    · rw [channel_get _ _ _ h0]
      split
      · exact (neg_lt_zero.2 hL).ne
      · exact hL.ne'
  have hdl : out.denoised.length = rx.length := by rw [(c137_overruled C hx 0 C.model).1, hrl]
  apply List.ext_getElem?
  intro i
  by_cases hi : i < rx.length
  swap
  · rw [List.getElem?_eq_none (by omega), List.getElem?_eq_none (by omega)]
  have hbit : decide ((channelLlr c.bitFlip rx).getD i 0 < 0) = rx.getD i false := by
    rw [channel_get _ _ _ hi]
    cases rx.getD i false
    · simp only [Bool.false_eq_true, if_false, decide_eq_false_iff_not, not_lt]; exact hL.le
    · simp only [if_true, decide_eq_true_eq]; linarith
  have key : out.denoised.getD i false = rx.getD i false := by
    by_cases him : i < c.modelLength
    swap
    · rw [c137_others C i (not_lt.1 him) (by omega), hbit]
    by_contra hne
    obtain ⟨_, h⟩ := c158_needed C hx i him (by rw [hbit]; exact hne)
    obtain ⟨hk, _⟩ := c137_evidence C hx i him (by rw [hbit]; exact hne)
    have habs : |(channelLlr c.bitFlip rx).getD i 0| = Real.log ((1 - c.bitFlip) / c.bitFlip) := by
      rw [channel_get _ _ _ hi]
      split
      · rw [abs_neg, abs_of_pos hL]
      · rw [abs_of_pos hL]
    rw [habs, Real.exp_log (div_pos (by linarith) hp), Nat.cast_sub hk] at h
    have e : (1 - c.bitFlip) / c.bitFlip * (1 - 2 * c.bitFlip) = c.bitFlip * ((1 - c.bitFlip) * (1 - 2 * c.bitFlip) / c.bitFlip ^ 2) := by
      field_simp
    rw [e] at h
    have := lt_of_mul_lt_mul_left h hp.le
    linarith
  rw [List.getD_eq_getElem?_getD, List.getD_eq_getElem?_getD, List.getElem?_eq_getElem (by omega), List.getElem?_eq_getElem hi] at key
  rw [List.getElem?_eq_getElem (by omega), List.getElem?_eq_getElem hi]
  exact congrArg some key

/-- **C158.** So for an LDPC decoder that looks at the signs only, such a word is decoded as without the model. -/
theorem c158_signs {c : DudeCfg} {cls : Labeler σ} {ldpc : Ldpc Λ} {words : List (List ℝ)} {rx : List Bool} {l : Nat} {out : DudeOut}
    {own : List (List ℝ)} (C : Case c cls ldpc words (channelLlr c.bitFlip rx) l out own) (hp : 0 < c.bitFlip)
    (hn : (own.length : ℝ) ≤ c.context + (1 - c.bitFlip) * (1 - 2 * c.bitFlip) / c.bitFlip ^ 2) (decision : List Bool → List Bool × Bool)
    (hs : ∀ s w, ((ldpc s (.llr w)).2.estimate, (ldpc s (.llr w)).2.success) = decision (hardWord w)) :
    (out.estimate, out.success) = decision rx := by
  have hd := c158_bsc C hp hn
  obtain ⟨h0, hf, hk, hm, hc, hpre, hw, hch, ⟨cs, ls, s0, hnew, hr, rfl⟩, hl⟩ := C
  obtain ⟨peak, handed, hpk, hh, hhl, hwl, hbits, hden⟩ :=
    c72_combines h0 hf hk hm hpre cls ldpc cs ls s0 hnew words hw _ hch l out hr hl
  obtain ⟨w, hw1, r1, _, r3, _⟩ := c72_returned c cls ldpc _ _ out hr
  rw [hh] at hw1
  cases hw1
  rw [r1, r3, hs, ← hden, hd]

/-- The smallest flip probability and the context length of the simulation by default (runs/HC_eilat_July_2018/simulated_data_classifying_dude_decoder.py:23, 39). -/
noncomputable def simulated : DudeCfg := { C137.dudeTenth with bitFlip := 33 / 1000, context := 8 }

/-- The hypotheses can be met: 837 words with a zero in the model bit do not make the decoder overrule a one, whatever the LDPC decoder. -/
example (ldpc : Ldpc Unit) (cls : Labeler Unit) :
    ∃ out, Case simulated cls ldpc (List.replicate 837 (channelLlr simulated.bitFlip [false, false, false]))
      (channelLlr simulated.bitFlip [true, false, false]) 0 out (List.replicate 837 (channelLlr simulated.bitFlip [false, false, false])) ∧
      out.denoised = [true, false, false] := by
  obtain ⟨s0, hnew⟩ := (c72_constructor (σ := Unit) (Λ := Unit) simulated () ()).2 (by norm_num [simulated, dudeTenth])
  have hp : Prefixed simulated := Or.inr (by simp [simulated, dudeTenth])
  have h0 : 0 ≤ simulated.bitFlip := by norm_num [simulated]
  have hf : simulated.bitFlip < 1 / 2 := by norm_num [simulated]
  have hw : ∀ w ∈ List.replicate 837 (channelLlr simulated.bitFlip [false, false, false]), simulated.modelLength ≤ w.length := by
    intro w hw
    rw [(List.mem_replicate.1 hw).2, channel_length]
    simp [simulated, dudeTenth]
  have hl3 : simulated.modelLength ≤ (channelLlr simulated.bitFlip [true, false, false]).length := by
    rw [channel_length]
    simp [simulated, dudeTenth]
  obtain ⟨hret, hown⟩ := single_cluster h0 hf (by simp [simulated]) Nat.one_pos hp rfl cls ldpc () () s0 hnew _ hw
  obtain ⟨out, ho, hl⟩ := hret _ hl3
  have C : Case simulated cls ldpc (List.replicate 837 (channelLlr simulated.bitFlip [false, false, false]))
      (channelLlr simulated.bitFlip [true, false, false]) 0 out (List.replicate 837 (channelLlr simulated.bitFlip [false, false, false])) :=
    ⟨h0, hf, by simp [simulated], Nat.one_pos, by norm_num [simulated, dudeTenth], hp, hw, hl3, ⟨(), (), s0, hnew, ho, hown.symm⟩,
      by rw [hl]; rfl⟩
  refine ⟨out, C, c158_bsc C (by norm_num [simulated]) ?_⟩
  rw [List.length_replicate]
  norm_num [simulated]

end NR.C158

import Verif.Props.C159
import Mathlib.Analysis.SpecialFunctions.Exp
import Mathlib.Analysis.SpecialFunctions.Log.Basic
/-
C160: in the long run the DUDE decoder repairs every bit that is wrong rarely.
-/
namespace NR.C160
open NR NR.Spec NR.C137 NR.C157 Filter Topology
open NR.C147 (errorsOff Corrects)

theorem trust_tendsto (center : ℝ) {slope : ℝ} (hs : 0 < slope) : Tendsto (fun n : ℕ => trust (n + 1) center slope) atTop (𝓝 1) := by
  have h1 : Tendsto (fun n : ℕ => -(((n + 1 : ℕ) : ℝ) - center) * slope) atTop atBot := by
    have h : Tendsto (fun n : ℕ => (n : ℝ)) atTop atTop := tendsto_natCast_atTop_atTop
    have h2 : Tendsto (fun n : ℕ => ((n + 1 : ℕ) : ℝ) - center) atTop atTop := by
      have := tendsto_atTop_add_const_right atTop (1 - center) h
      refine this.congr fun n => ?_
      push_cast
      ring
    exact (tendsto_neg_atTop_atBot.comp h2).atBot_mul_const hs
  have h2 : Tendsto (fun n : ℕ => 1 / (1 + Real.exp (-(((n + 1 : ℕ) : ℝ) - center) * slope))) atTop (𝓝 (1 / (1 + 0))) :=
    tendsto_const_nhds.div (tendsto_const_nhds.add (Real.tendsto_exp_atBot.comp h1)) (by norm_num)
  rw [show (1 : ℝ) / (1 + 0) = 1 by norm_num] at h2
  refine h2.congr' ?_
  filter_upwards [eventually_ge_atTop 1] with n hn
  unfold trust
  rw [if_neg (by omega)]

theorem doubt_ge {f : ℝ} (h0 : 0 < f) (hf : f < 1 / 2) {a b : ℕ} {β : ℝ} (hβ : 0 ≤ β) (ha : β * (1 - f) ≤ f * a)
    (hb : (1 - f) * b ≤ f * a) : β / (β + (1 - f)) ≤ doubt f a b := by
  have hd : 0 < 1 - 2 * f := by linarith
  have hg : 0 < 1 - f := by linarith
  have hY : ((1 - f) * (b : ℝ) - f * a) / (1 - 2 * f) ≤ 1 :=
    le_trans (div_nonpos_of_nonpos_of_nonneg (by linarith) hd.le) zero_le_one
  have hX : (a : ℝ) / (1 - f) ≤ ((1 - f) * a - f * b) / (1 - 2 * f) := by
    rw [div_le_div_iff₀ hg hd]
    have := mul_le_mul_of_nonneg_left hb h0.le
    nlinarith
  have hX' := hX.trans (le_max_right 1 _)
  unfold doubt
  rw [max_eq_left hY, one_mul]
  generalize max 1 (((1 - f) * (a : ℝ) - f * b) / (1 - 2 * f)) = X at *
  rw [div_le_iff₀ hg] at hX'
  have hXf : β ≤ X * f := by
    have : β * (1 - f) ≤ X * f * (1 - f) := by nlinarith
    exact le_of_mul_le_mul_right this hg
  rw [div_le_div_iff₀ (by linarith) (by linarith)]
  nlinarith

/-- What a long history says against a value: at least this, which tends to `log (2⁵² + 1)`. -/
theorem odds_tendsto {f : ℝ} (h0 : 0 < f) (hf : f < 1 / 2) (k : ℕ) (center : ℝ) {slope : ℝ} (hs : 0 < slope) :
    Tendsto (fun n : ℕ => trust (n + 1) center slope * Real.log ((((n : ℝ) - k) * f / (1 + f * k) / (((n : ℝ) - k) * f / (1 + f * k) + (1 - f)) +
      2 ^ (-52 : ℤ)) / (1 - ((n : ℝ) - k) * f / (1 + f * k) / (((n : ℝ) - k) * f / (1 + f * k) + (1 - f)) + 2 ^ (-52 : ℤ))))
      atTop (𝓝 (Real.log (2 ^ 52 + 1))) := by
  have hk : 0 < 1 + f * k := by positivity
  have hg : 0 < 1 - f := by linarith
  have hβ : Tendsto (fun n : ℕ => ((n : ℝ) - k) * f / (1 + f * k)) atTop atTop := by
    refine Tendsto.atTop_div_const hk (Tendsto.atTop_mul_const h0 ?_)
    exact tendsto_atTop_add_const_right atTop (-(k : ℝ)) tendsto_natCast_atTop_atTop
  have hd : Tendsto (fun n : ℕ => ((n : ℝ) - k) * f / (1 + f * k) / (((n : ℝ) - k) * f / (1 + f * k) + (1 - f))) atTop (𝓝 1) := by
    have hlim : Tendsto (fun n : ℕ => 1 - (1 - f) * (((n : ℝ) - k) * f / (1 + f * k) + (1 - f))⁻¹) atTop (𝓝 (1 - (1 - f) * 0)) :=
      tendsto_const_nhds.sub (tendsto_const_nhds.mul (tendsto_inv_atTop_zero.comp (tendsto_atTop_add_const_right atTop _ hβ)))
    rw [mul_zero, sub_zero] at hlim
    refine hlim.congr' ?_
    filter_upwards [hβ.eventually_ge_atTop 0] with n hn
    generalize ((n : ℝ) - k) * f / (1 + f * k) = B at *
    have : 0 < B + (1 - f) := by linarith
    field_simp
    ring
  have hq := (hd.add (tendsto_const_nhds (x := (2 ^ (-52 : ℤ) : ℝ)))).div
    (((tendsto_const_nhds (x := (1 : ℝ))).sub hd).add (tendsto_const_nhds (x := (2 ^ (-52 : ℤ) : ℝ)))) (by norm_num)
  rw [show ((1 + 2 ^ (-52 : ℤ)) / (1 - 1 + 2 ^ (-52 : ℤ)) : ℝ) = 2 ^ 52 + 1 by norm_num] at hq
  have := (trust_tendsto center hs).mul (hq.log (by norm_num))
  rwa [one_mul] at this

open Classical in
/-- A bit that should be `v`: it was received right the last `k` times, wrong in few of all words of the cluster (a share of about
`f / (1 + f k)`), and if it is wrong now its magnitude is at most `bound`. -/
structure Settled (c : DudeCfg) (own : List (List ℝ)) (ch : List ℝ) (i : Nat) (v : Bool) (bound : ℝ) : Prop where
  clean : (bitHistory i own).drop (own.length - c.context) = List.replicate c.context v
  share : (1 - c.bitFlip) * (slips v (bitHistory i own) + 1) ≤
    c.bitFlip * (own.length - c.context - (c.context + 1) * slips v (bitHistory i own))
  magnitude : decide (ch.getD i 0 < 0) ≠ v → |ch.getD i 0| ≤ bound

/-- **C160.** With a positive slope: for every magnitude below `log (2⁵² + 1)` there is a number of words after which every such bit is
handed to the LDPC decoder with its right value, whether it is received right or wrong. -/
theorem c160_repaired {c : DudeCfg} (hp0 : 0 < c.bitFlip) (hpf : c.bitFlip < 1 / 2) (hs : 0 < c.slope) {bound : ℝ}
    (hb : bound < Real.log (2 ^ 52 + 1)) :
    ∃ N : ℕ, ∀ {σ Λ : Type} {cls : Labeler σ} {ldpc : Ldpc Λ} {words : List (List ℝ)} {ch : List ℝ} {l : Nat} {out : DudeOut}
      {own : List (List ℝ)}, Case c cls ldpc words ch l out own → N ≤ own.length → (∃ x ∈ ch, x ≠ 0) → ∀ i, i < c.modelLength → ∀ v,
      Settled c own ch i v bound → out.denoised.getD i false = v := by
  classical
  obtain ⟨N, hN⟩ := eventually_atTop.1 ((odds_tendsto hp0 hpf c.context c.center hs).eventually (lt_mem_nhds hb))
  refine ⟨N, fun {σ Λ cls ldpc words ch l out own} C hn hx i hi v S => ?_⟩
  obtain ⟨hcl, hsh, hmag⟩ := S
  have hlen : (bitHistory i own).length = own.length := by simp [bitHistory]
  have hcl' : (bitHistory i own).drop ((bitHistory i own).length - c.context) = List.replicate c.context v := by rw [hlen]; exact hcl
  obtain ⟨c1, c2⟩ := clean_counts hcl'
  have hg : 0 < 1 - c.bitFlip := by linarith
  -- enough words
  have hen : c.context + (c.context + 1) * slips v (bitHistory i own) + slips v (bitHistory i own) + 1 ≤ own.length := by
    have h1 : c.bitFlip * ((slips v (bitHistory i own) : ℝ) + 1) ≤
        c.bitFlip * (own.length - c.context - (c.context + 1) * slips v (bitHistory i own)) := by
      have : (0 : ℝ) ≤ slips v (bitHistory i own) + 1 := by positivity
      nlinarith
    have h2 := le_of_mul_le_mul_left h1 hp0
    have h3 : ((c.context + (c.context + 1) * slips v (bitHistory i own) + slips v (bitHistory i own) + 1 : ℕ) : ℝ) ≤ (own.length : ℕ) := by
      push_cast
      linarith
    exact_mod_cast h3
  have hk : c.context ≤ (bitHistory i own).length := by omega
  by_cases hz : decide (ch.getD i 0 < 0) = v
  · by_contra hne
    have hov : out.denoised.getD i false ≠ decide (ch.getD i 0 < 0) := by rw [hz]; exact hne
    obtain ⟨_, _, _, e2⟩ := c137_evidence C hx i hi hov
    rw [hz] at e2
    have hge : ((inContext c.context (bitHistory i own) (!v) : ℕ) : ℝ) ≤ (inContext c.context (bitHistory i own) v : ℕ) + 1 := by
      have : inContext c.context (bitHistory i own) (!v) ≤ inContext c.context (bitHistory i own) v + 1 := by omega
      exact_mod_cast this
    have hnn : (0 : ℝ) ≤ (inContext c.context (bitHistory i own) v : ℕ) + 1 := by positivity
    have hsq : 2 * c.bitFlip * (1 - c.bitFlip) ≤ c.bitFlip ^ 2 + (1 - c.bitFlip) ^ 2 := by nlinarith [sq_nonneg (1 - 2 * c.bitFlip)]
    have hp : 0 ≤ 2 * c.bitFlip * (1 - c.bitFlip) := mul_nonneg (by linarith) (by linarith)
    have m1 := mul_le_mul_of_nonneg_left hge hp
    have m2 := mul_le_mul_of_nonneg_right hsq hnn
    linarith
  · have hz' : decide (ch.getD i 0 < 0) = !v := ne_not hz
    have hov := ((c137_overruled C hx i hi).2).2 (Or.inl (lt_of_le_of_lt (hmag hz) (lt_of_lt_of_le (hN own.length hn) ?_)))
    · rw [hz'] at hov
      exact (ne_not hov).trans (Bool.not_not v)
    · unfold against doubtOf
      rw [hz', if_neg (not_lt.2 hk), hlen, Bool.not_not]
      have hnk : (c.context : ℝ) ≤ own.length := by
        have : c.context ≤ own.length := by omega
        exact_mod_cast this
      have hfk : 0 < 1 + c.bitFlip * c.context := by positivity
      have hβ : 0 ≤ ((own.length : ℝ) - c.context) * c.bitFlip / (1 + c.bitFlip * c.context) :=
        div_nonneg (mul_nonneg (by linarith) hp0.le) hfk.le
      have hD0 : 0 ≤ ((own.length : ℝ) - c.context) * c.bitFlip / (1 + c.bitFlip * c.context) /
          (((own.length : ℝ) - c.context) * c.bitFlip / (1 + c.bitFlip * c.context) + (1 - c.bitFlip)) := div_nonneg hβ (by linarith)
      refine mul_le_mul_of_nonneg_left (odds_mono hD0 ?_ (doubt_bounds C.flip0 C.flip _ _).2) (trust_nonneg _ _ _)
      have hcast : ((own.length - c.context - (c.context + 1) * slips v (bitHistory i own) : ℕ) : ℝ) =
          own.length - c.context - (c.context + 1) * slips v (bitHistory i own) := by
        rw [Nat.cast_sub (by omega), Nat.cast_sub (by omega)]
        push_cast
        ring
      refine le_trans (doubt_ge hp0 hpf hβ (a := own.length - c.context - (c.context + 1) * slips v (bitHistory i own))
        (b := slips v (bitHistory i own) + 1) ?_ ?_) (doubt_mono C.flip0 C.flip (by omega) (by omega))
      · rw [hcast, div_mul_eq_mul_div, div_le_iff₀ hfk]
        generalize (slips v (bitHistory i own) : ℝ) = t at hsh
        have h1 : t * (1 + c.bitFlip * c.context) ≤ c.bitFlip * (own.length - c.context) := by linarith
        have h2 := mul_le_mul_of_nonneg_left h1 (mul_nonneg hp0.le (by positivity : (0 : ℝ) ≤ c.context + 1))
        linarith
      · rw [hcast]
        push_cast
        exact hsh

/-- **C160.** After that number of words, if all other model bits and the wrong bits outside the model are together not more than the LDPC
decoder corrects, the word sent is returned with success, whatever the classifier, the code and the LDPC decoder. -/
theorem c160_decodes {c : DudeCfg} (hp0 : 0 < c.bitFlip) (hpf : c.bitFlip < 1 / 2) (hs : 0 < c.slope) {bound : ℝ}
    (hb : bound < Real.log (2 ^ 52 + 1)) :
    ∃ N : ℕ, ∀ {σ Λ : Type} {cls : Labeler σ} {ldpc : Ldpc Λ} {words : List (List ℝ)} {ch : List ℝ} {l : Nat} {out : DudeOut}
      {own : List (List ℝ)}, Case c cls ldpc words ch l out own → N ≤ own.length → (∃ x ∈ ch, x ≠ 0) →
      ∀ (code : List Bool → Prop) (T : Nat), Corrects ldpc code T → ∀ x : List Bool, code x → ch.length = x.length → ∀ S : Finset Nat,
      (∀ i ∈ S, i < c.modelLength ∧ Settled c own ch i (x.getD i false) bound) →
      (c.modelLength - S.card) + errorsOff (List.range c.modelLength) x ch ≤ T → out.success = true ∧ out.estimate = x := by
  obtain ⟨N, hN⟩ := c160_repaired hp0 hpf hs hb
  refine ⟨N, fun C hn hx code T hcor x hcode hlen S hS hT => ?_⟩
  exact decodes_of_repaired C code T hcor x hcode hlen S (fun i hi => ⟨(hS i hi).1, hN C hn hx i (hS i hi).1 _ (hS i hi).2⟩) hT

/-- The ratios of the binary symmetric channel are below the bound, but for flip probabilities below the machine epsilon. -/
theorem bsc_below {p : ℝ} (h : 2 ^ (-52 : ℤ) ≤ p) (hp : p < 1 / 2) : Real.log ((1 - p) / p) < Real.log (2 ^ 52 + 1) := by
  have h0 : 0 < p := lt_of_lt_of_le (by positivity) h
  refine Real.log_lt_log (div_pos (by linarith) h0) ?_
  rw [div_lt_iff₀ h0]
  have : (2 : ℝ) ^ 52 * 2 ^ (-52 : ℤ) ≤ 2 ^ 52 * p := mul_le_mul_of_nonneg_left h (by positivity)
  norm_num at this
  nlinarith

/-- **C160.** A whole run with one cluster over the binary symmetric channel whose flip probability the decoder is told: there is a number
of words after which every word is decoded whose model bits, but for as many as the LDPC decoder corrects, were received right the last `k`
times and wrong in few of all earlier words. -/
theorem c160_run {c : DudeCfg} (hp0 : 2 ^ (-52 : ℤ) ≤ c.bitFlip) (hpf : c.bitFlip < 1 / 2) (hk : 1 ≤ c.context) (hm : 0 < c.modelLength)
    (hclip : 0 < c.clipping) (hp : Prefixed c) (h1 : c.nClusters = 1) (hs : 0 < c.slope) :
    ∃ N : ℕ, ∀ {σ Λ : Type} (cls : Labeler σ) (ldpc : Ldpc Λ) (cs : σ) (ls : Λ) (s0 : DudeDec σ Λ), DudeDec.new c cs ls = .ok s0 →
      ∀ (code : List Bool → Prop) (T : Nat), Corrects ldpc code T → ∀ received : List (List Bool),
      (∀ w ∈ received, c.modelLength ≤ w.length) → ∀ (j : Nat) (rx : List Bool), received[j]? = some rx → N ≤ j →
      ∀ x : List Bool, code x → rx.length = x.length → ∀ S : Finset Nat,
      (∀ i ∈ S, i < c.modelLength ∧
        ((received.take j).map fun w => w.getD i false).drop (j - c.context) = List.replicate c.context (x.getD i false) ∧
        (1 - c.bitFlip) * (slips (x.getD i false) ((received.take j).map fun w => w.getD i false) + 1) ≤
          c.bitFlip * (j - c.context - (c.context + 1) * slips (x.getD i false) ((received.take j).map fun w => w.getD i false))) →
      (c.modelLength - S.card) + errorsOff (List.range c.modelLength) x (channelLlr c.bitFlip rx) ≤ T →
      ∃ st out, (s0.run c cls ldpc (received.map (channelLlr c.bitFlip))).2[j]? = some st ∧ st.result = .ok out ∧ out.success = true ∧
        out.estimate = x := by
  classical
  have h0 : 0 < c.bitFlip := lt_of_lt_of_le (by positivity) hp0
  have hL := C158.log_pos_of h0 hpf
  obtain ⟨N, hN⟩ := c160_decodes h0 hpf hs (bsc_below hp0 hpf)
  refine ⟨N, fun {σ Λ} cls ldpc cs ls s0 hnew code T hcor received hrec j rx hj hnj x hcode hlen S hS hT => ?_⟩
  have hrx : c.modelLength ≤ rx.length := hrec rx (List.mem_of_getElem? hj)
  have hjl : j < received.length := (List.getElem?_eq_some_iff.1 hj).1
  have hbit : ∀ w : List Bool, ∀ i, i < w.length → decide ((channelLlr c.bitFlip w).getD i 0 < 0) = w.getD i false := by
    intro w i hi
    rw [C158.channel_get _ _ _ hi]
    cases w.getD i false
    · simp only [Bool.false_eq_true, if_false, decide_eq_false_iff_not, not_lt]; exact hL.le
    · simp only [if_true, decide_eq_true_eq]; linarith
  have hhist : ∀ i, i < c.modelLength → bitHistory i ((received.map (channelLlr c.bitFlip)).take j) =
      (received.take j).map fun w => w.getD i false := by
    intro i hi
    unfold bitHistory
    rw [← List.map_take, List.map_map]
    refine List.map_congr_left fun w hw => ?_
    exact hbit w i (lt_of_lt_of_le hi (hrec w (List.mem_of_mem_take hw)))
  have hx : ∃ y ∈ channelLlr c.bitFlip rx, y ≠ 0 := by
    refine ⟨(channelLlr c.bitFlip rx).getD 0 0, ?_, ?_⟩
    · rw [List.getD_eq_getElem?_getD, List.getElem?_eq_getElem (by rw [C158.channel_length]; omega)]
      exact List.getElem_mem _
    · rw [C158.channel_get _ _ _ (by omega)]
      split
      · exact (neg_lt_zero.2 hL).ne
      · exact hL.ne'
  have hw : ∀ w ∈ received.map (channelLlr c.bitFlip), c.modelLength ≤ w.length := by
    intro w hw
    obtain ⟨r, hr, rfl⟩ := List.mem_map.1 hw
    rw [C158.channel_length]
    exact hrec r hr
  have hjw : (received.map (channelLlr c.bitFlip))[j]? = some (channelLlr c.bitFlip rx) := by rw [List.getElem?_map, hj]; rfl
  have ht : ∀ v ∈ (received.map (channelLlr c.bitFlip)).take j, c.modelLength ≤ v.length := fun v hv => hw v (List.mem_of_mem_take hv)
  have htl : ((received.map (channelLlr c.bitFlip)).take j).length = j := by rw [List.length_take, List.length_map]; omega
  obtain ⟨hret, hown⟩ := single_cluster h0.le hpf hk hm hp h1 cls ldpc cs ls s0 hnew _ ht
  obtain ⟨out, ho, hl⟩ := hret (channelLlr c.bitFlip rx) (by rw [C158.channel_length]; exact hrx)
  have C : Case c cls ldpc ((received.map (channelLlr c.bitFlip)).take j) (channelLlr c.bitFlip rx) 0 out
      ((received.map (channelLlr c.bitFlip)).take j) :=
    ⟨h0.le, hpf, hk, hm, hclip, hp, ht, by rw [C158.channel_length]; exact hrx, ⟨cs, ls, s0, hnew, ho, hown.symm⟩, by rw [hl]; rfl⟩
  obtain ⟨e1, e2⟩ := hN C (by rw [htl]; exact hnj) hx code T hcor x hcode (by rw [C158.channel_length, hlen]) S (by
    intro i hi
    obtain ⟨g1, g2, g3⟩ := hS i hi
    refine ⟨g1, ?_, ?_, fun _ => ?_⟩
    · rw [hhist i g1, htl]; exact g2
    · rw [hhist i g1, htl]; exact g3
    · rw [C158.channel_get _ _ _ (by omega)]
      split
      · rw [abs_neg, abs_of_pos hL]
      · rw [abs_of_pos hL]) hT
  exact ⟨_, out, step_at c cls ldpc _ s0 j _ hjw, ho, e1, e2⟩

/-! ### A case that meets the hypotheses -/

/-- `C157.demo` with a positive slope: both model bits of words of four bits. -/
noncomputable def demo : DudeCfg := { C157.demo with slope := 1 }

/-- After enough words of zeros, a word with both model bits wrong is decoded, by an LDPC decoder that corrects nothing. -/
example (cls : Labeler Unit) : ∃ n, ∃ s0, DudeDec.new demo () () = .ok s0 ∧ ∃ st out,
    (s0.run demo cls C149.plain ((List.replicate n [false, false, false, false] ++ [[true, true, false, false]]).map
      (channelLlr demo.bitFlip))).2[n]? = some st ∧ st.result = .ok out ∧ out.success = true ∧ out.estimate = [false, false, false, false] := by
  obtain ⟨s0, hnew⟩ := (c72_constructor (σ := Unit) (Λ := Unit) demo () ()).2 (by norm_num [demo, C157.demo])
  have hpre : Prefixed demo := Or.inr (by
      refine ⟨by simp [demo, C157.demo], fun i hi => ?_⟩
      have hi : i < 2 := hi
      match i with
      | 0 => rfl
      | 1 => rfl)
  obtain ⟨N, hN⟩ := c160_run (c := demo) (by norm_num [demo, C157.demo]) (by norm_num [demo, C157.demo]) (by norm_num [demo, C157.demo])
    (by norm_num [demo, C157.demo]) (by norm_num [demo, C157.demo]) hpre rfl (by norm_num [demo, C157.demo])
  refine ⟨N + 11, s0, hnew, hN cls C149.plain () () s0 hnew _ 0 C149.plain_corrects _ ?_ (N + 11) [true, true, false, false] ?_ (by omega)
    [false, false, false, false] rfl rfl (Finset.range 2) ?_ ?_⟩
  · intro w hw
    have : w.length = 4 := by
      rcases List.mem_append.1 hw with h | h
      · rw [(List.mem_replicate.1 h).2]; rfl
      · rw [List.mem_singleton.1 h]; rfl
    rw [this]
    show 2 ≤ 4
    omega
  · rw [List.getElem?_append_right (by rw [List.length_replicate]), List.length_replicate, Nat.sub_self]
    rfl
  · intro i hi
    have hi := Finset.mem_range.1 hi
    have hv : ([false, false, false, false] : List Bool).getD i false = false := by
      match i with
      | 0 => rfl
      | 1 => rfl
    rw [List.take_left' (by rw [List.length_replicate]), List.map_replicate, hv]
    refine ⟨hi, ?_, ?_⟩
    · rw [List.drop_replicate]
      congr 1
      show N + 11 - (N + 11 - 2) = 2
      omega
    · have : slips false (List.replicate (N + 11) false) = 0 := by
        unfold slips
        rw [List.countP_replicate]
        simp
      rw [this]
      have : (0 : ℝ) ≤ N := Nat.cast_nonneg N
      norm_num [demo, C157.demo]
      linarith
  · rw [Finset.card_range]
    have : errorsOff (List.range demo.modelLength) [false, false, false, false] (channelLlr demo.bitFlip [true, true, false, false]) = 0 := by
      unfold errorsOff
      rw [C159.hardWord_channel (by norm_num [demo, C157.demo]) (by norm_num [demo, C157.demo]), Finset.card_eq_zero,
        Finset.filter_eq_empty_iff]
      intro i hi
      have hi : i < 4 := Finset.mem_range.1 hi
      rintro ⟨h1, h2⟩
      have h1 : ¬ i < 2 := fun h => h1 (List.mem_range.2 h)
      apply h2
      have : i = 2 ∨ i = 3 := by omega
      rcases this with rfl | rfl <;> rfl
    rw [this]
    exact le_rfl

end NR.C160

import Verif.Props.C156
import Verif.Props.C158
/-
C159: the simulation of the DUDE decoder with few words.
-/
namespace NR.C159
open NR NR.Spec NR.C137

variable {σ Λ Μ : Type}

/-- The LDPC decoder as the simulation calls it, simulated_data_classifying_dude_decoder.py:137. -/
def ldpcCoder (ldpc : Ldpc Λ) : Coder Λ := fun s ch _ =>
  ((ldpc s (.llr ch)).1, .ok ((ldpc s (.llr ch)).2.estimate, (ldpc s (.llr ch)).2.success))

/-- The DUDE decoder as the simulation calls it, simulated_data_classifying_dude_decoder.py:139. -/
noncomputable def dudeCoder (c : DudeCfg) (cls : Labeler σ) (ldpc : Ldpc Λ) : Coder (DudeDec σ Λ) := fun s ch _ =>
  ((s.decode c cls ldpc ch).state, (s.decode c cls ldpc ch).result.map fun o => (o.estimate, o.success))

theorem run_state (c : DudeCfg) (cls : Labeler σ) (ldpc : Ldpc Λ) (ch : List ℝ) : ∀ (ws : List (List ℝ)) (s : DudeDec σ Λ),
    (s.run c cls ldpc (ws ++ [ch])).1 = ((s.run c cls ldpc ws).1.decode c cls ldpc ch).state
  | [], _ => rfl
  | w :: ws, s => run_state c cls ldpc ch ws (s.decode c cls ldpc w).state

theorem hardWord_channel {p : ℝ} (h0 : 0 < p) (h : p < 1 / 2) (rx : List Bool) : hardWord (channelLlr p rx) = rx := by
  have hL := C158.log_pos_of h0 h
  unfold hardWord channelLlr bscLlr
  rw [List.map_map, List.map_map]
  conv_rhs => rw [← List.map_id rx]
  refine List.map_congr_left fun b _ => ?_
  cases b
  · simp [hL.le]
  · simp [hL]

theorem own_length (l : Nat) (words : List (List ℝ)) (steps : List (DudeStep σ Λ)) : (ownWords l words steps).length ≤ words.length := by
  unfold ownWords
  refine (List.length_filterMap_le _ _).trans ?_
  rw [List.length_zip]
  exact Nat.min_le_left _ _

/-- The hypotheses on the parameters: the decoder is told the flip probability of the channel, the rest is as in C137. -/
structure Params (c : DudeCfg) (p : ℚ) : Prop where
  told : c.bitFlip = p
  pos : 0 < c.bitFlip
  flip : c.bitFlip < 1 / 2
  context : 1 ≤ c.context
  model : 0 < c.modelLength
  clipping : 0 < c.clipping
  prefixed : Prefixed c

/-- Every word that is decoded is decoded as by an LDPC decoder that looks at the signs only. -/
theorem c159_word {c : DudeCfg} {p : ℚ} (P : Params c p) (cls : Labeler σ) (ldpc : Ldpc Λ) (cs : σ) (ls : Λ) (s0 : DudeDec σ Λ)
    (hnew : DudeDec.new c cs ls = .ok s0) (decision : List Bool → List Bool × Bool)
    (hs : ∀ s w, ((ldpc s (.llr w)).2.estimate, (ldpc s (.llr w)).2.success) = decision (hardWord w)) (pre : List (List ℝ))
    (hpre : ∀ w ∈ pre, c.modelLength ≤ w.length) (rx : List Bool) (hrx : c.modelLength ≤ rx.length)
    (hn : (pre.length : ℝ) ≤ c.context + (1 - c.bitFlip) * (1 - 2 * c.bitFlip) / c.bitFlip ^ 2) (out : DudeOut)
    (ho : ((s0.run c cls ldpc pre).1.decode c cls ldpc (channelLlr p rx)).result = .ok out) : (out.estimate, out.success) = decision rx := by
  rw [← P.told] at ho
  by_cases hl : out.label < 0
  · obtain ⟨w, h1, h2, _, h4, _⟩ := c72_returned c cls ldpc _ _ out ho
    have h := c72_training c cls ldpc _ _ out ho hl
    rw [h.1, Option.some.injEq] at h1
    rw [h2, h4, hs, ← h1, hardWord_channel P.pos P.flip]
  · have C : Case c cls ldpc pre (channelLlr c.bitFlip rx) out.label.toNat out (ownWords out.label.toNat pre (s0.run c cls ldpc pre).2) :=
      ⟨P.pos.le, P.flip, P.context, P.model, P.clipping, P.prefixed, hpre, by rw [C158.channel_length]; exact hrx,
        ⟨cs, ls, s0, hnew, ho, rfl⟩, by omega⟩
    refine C158.c158_signs C P.pos (le_trans ?_ hn) decision hs
    exact_mod_cast own_length _ _ _

theorem c159_loop {c : DudeCfg} {p : ℚ} (P : Params c p) (cls : Labeler σ) (ldpc : Ldpc Λ) (cs : σ) (ls : Λ) (s0 : DudeDec σ Λ)
    (hnew : DudeDec.new c cs ls = .ok s0) (decision : List Bool → List Bool × Bool)
    (hs : ∀ s w, ((ldpc s (.llr w)).2.estimate, (ldpc s (.llr w)).2.success) = decision (hardWord w)) (plain : Ldpc Μ)
    (hp : ∀ s w, ((plain s (.llr w)).2.estimate, (plain s (.llr w)).2.success) = decision (hardWord w)) :
    ∀ (words : List (List Bool × List Nat)) (pre : List (List ℝ)) (a : Μ) (h : List (Nat × Nat)), (∀ w ∈ pre, c.modelLength ≤ w.length) →
    (∀ x ∈ words, (x.2.Nodup ∧ ∀ e ∈ x.2, e < x.1.length) ∧ c.modelLength ≤ x.1.length) →
    ((pre.length + words.length : ℕ) : ℝ) ≤ c.context + (1 - c.bitFlip) * (1 - 2 * c.bitFlip) / c.bitFlip ^ 2 + 1 →
    simLoop (ldpcCoder plain) (dudeCoder c cls ldpc) p a (s0.run c cls ldpc pre).1 words = .ok h → h.map Prod.snd = h.map Prod.fst
  | [], pre, a, h, _, _, _, hl => by cases hl; rfl
  | (tx, errors) :: words, pre, a, h, hpre, hw, hn, hl => by
    obtain ⟨⟨w1, w2⟩, w3⟩ := hw (tx, errors) (by simp)
    have hr := invertAt_eq tx errors w1 w2
    have hlen : (flipAt tx errors).length = tx.length := by simp [flipAt]
    unfold simLoop at hl
    simp only [hr, bind, Except.bind, ldpcCoder] at hl
    have hA := hp a (channelLlr p (flipAt tx errors))
    have hpp : hardWord (channelLlr (p : ℝ) (flipAt tx errors)) = flipAt tx errors := by
      rw [← P.told]; exact hardWord_channel P.pos P.flip _
    rw [hpp] at hA
    have hA1 := congrArg Prod.fst hA
    simp only at hA1
    rw [hA1] at hl
    cases hd : hammingDistance (.bits (decision (flipAt tx errors)).1) (.bits tx) with
    | error e => rw [hd] at hl; cases hl
    | ok dist =>
      simp only [hd] at hl
      cases ho : ((s0.run c cls ldpc pre).1.decode c cls ldpc (channelLlr p (flipAt tx errors))).result with
      | error e => simp only [dudeCoder, ho, Except.map] at hl; cases hl
      | ok out =>
        have hB := c159_word P cls ldpc cs ls s0 hnew decision hs pre hpre _ (by rw [hlen]; exact w3) (by
          simp only [List.length_cons] at hn; push_cast at hn; linarith) out ho
        have hB1 := congrArg Prod.fst hB
        simp only at hB1
        simp only [dudeCoder, ho, Except.map, hB1, hd] at hl
        cases hrest : simLoop (ldpcCoder plain) (dudeCoder c cls ldpc) p (plain a (.llr (channelLlr p (flipAt tx errors)))).1
            ((s0.run c cls ldpc pre).1.decode c cls ldpc (channelLlr p (flipAt tx errors))).state words with
        | error e =>
          rw [hrest] at hl
          cases hl
        | ok t =>
          have ih := c159_loop P cls ldpc cs ls s0 hnew decision hs plain hp words (pre ++ [channelLlr p (flipAt tx errors)])
            (plain a (.llr (channelLlr p (flipAt tx errors)))).1 t (by
              intro w hw'
              rcases List.mem_append.1 hw' with h | h
              · exact hpre w h
              · rw [List.mem_singleton.1 h, C158.channel_length, hlen]; exact w3) (fun x hx => hw x (by simp [hx])) (by
              simp only [List.length_append, List.length_cons, List.length_nil] at hn ⊢
              push_cast at hn ⊢
              linarith) (by rw [run_state]; exact hrest)
          rw [hrest] at hl
          cases hl
          simp only [List.map_cons, ih]

/-- **C159.** The simulation over the binary symmetric channel, with an LDPC decoder that looks only at signs: with at most
`k + (1 - p) (1 - 2 p) / p² + 1` words the report cannot tell the DUDE decoder from the LDPC decoder. -/
theorem c159_same {c : DudeCfg} {p : ℚ} (P : Params c p) (cls : Labeler σ) (ldpc : Ldpc Λ) (cs : σ) (ls : Λ) (s0 : DudeDec σ Λ)
    (hnew : DudeDec.new c cs ls = .ok s0) (decision : List Bool → List Bool × Bool)
    (hs : ∀ s w, ((ldpc s (.llr w)).2.estimate, (ldpc s (.llr w)).2.success) = decision (hardWord w)) (plain : Ldpc Μ) (a : Μ)
    (hp : ∀ s w, ((plain s (.llr w)).2.estimate, (plain s (.llr w)).2.success) = decision (hardWord w)) (N : Nat)
    (words : List (List Bool × List Nat))
    (hw : ∀ x ∈ words, (x.2.Nodup ∧ ∀ e ∈ x.2, e < x.1.length) ∧ c.modelLength ≤ x.1.length)
    (hn : (words.length : ℝ) ≤ c.context + (1 - p) * (1 - 2 * p) / p ^ 2 + 1) (s : SimSummary)
    (h : simStep (ldpcCoder plain) (dudeCoder c cls ldpc) a s0 N p words = .ok s) : s.rect = s.pure ∧ s.recover = 0 := by
  cases words with
  | nil => cases h
  | cons w ws =>
    unfold simStep at h
    simp only [bind, Except.bind] at h
    cases hl : simLoop (ldpcCoder plain) (dudeCoder c cls ldpc) p a s0 (w :: ws) with
    | error e => rw [hl] at h; cases h
    | ok d =>
      rw [← P.told] at hn
      have hd := c159_loop P cls ldpc cs ls s0 hnew decision hs plain hp (w :: ws) [] a d (by simp) hw (by simpa using hn) hl
      rw [hl] at h
      cases h
      simp only [hd, sub_self, zero_div, ite_self, and_self]

/-- **C159.** With one cluster and a decision of the same length, the simulation does report. -/
theorem c159_reports {c : DudeCfg} {p : ℚ} (P : Params c p) (h1 : c.nClusters = 1) (cls : Labeler σ) (ldpc : Ldpc Λ) (cs : σ) (ls : Λ)
    (s0 : DudeDec σ Λ) (hnew : DudeDec.new c cs ls = .ok s0) (decision : List Bool → List Bool × Bool)
    (hdec : ∀ b, (decision b).1.length = b.length)
    (hs : ∀ s w, ((ldpc s (.llr w)).2.estimate, (ldpc s (.llr w)).2.success) = decision (hardWord w)) (plain : Ldpc Μ) (a : Μ)
    (hp : ∀ s w, ((plain s (.llr w)).2.estimate, (plain s (.llr w)).2.success) = decision (hardWord w)) (N : Nat)
    (words : List (List Bool × List Nat)) (hne : words ≠ [])
    (hw : ∀ x ∈ words, (x.2.Nodup ∧ ∀ e ∈ x.2, e < x.1.length) ∧ c.modelLength ≤ x.1.length) :
    ∃ s, simStep (ldpcCoder plain) (dudeCoder c cls ldpc) a s0 N p words = .ok s := by
  have loop : ∀ (words : List (List Bool × List Nat)) (pre : List (List ℝ)) (a : Μ), (∀ w ∈ pre, c.modelLength ≤ w.length) →
      (∀ x ∈ words, (x.2.Nodup ∧ ∀ e ∈ x.2, e < x.1.length) ∧ c.modelLength ≤ x.1.length) →
      ∃ h, simLoop (ldpcCoder plain) (dudeCoder c cls ldpc) p a (s0.run c cls ldpc pre).1 words = .ok h := by
    intro words
    induction words with
    | nil => exact fun _ _ _ _ => ⟨_, rfl⟩
    | cons x words ih =>
      obtain ⟨tx, errors⟩ := x
      intro pre a hpre hw
      obtain ⟨⟨w1, w2⟩, w3⟩ := hw (tx, errors) (by simp)
      have hr := invertAt_eq tx errors w1 w2
      have hlen : (flipAt tx errors).length = tx.length := by simp [flipAt]
      have hcl : (channelLlr (p : ℝ) (flipAt tx errors)).length = tx.length := by rw [C158.channel_length, hlen]
      have hch : c.modelLength ≤ (channelLlr (p : ℝ) (flipAt tx errors)).length := by rw [hcl]; exact w3
      have hhl : (hardWord (channelLlr (p : ℝ) (flipAt tx errors))).length = tx.length := by unfold hardWord; rw [List.length_map, hcl]
      obtain ⟨out, ho, hl⟩ := (single_cluster P.pos.le P.flip P.context P.model P.prefixed h1 cls ldpc cs ls s0 hnew pre hpre).1 _ hch
      obtain ⟨t, ht⟩ := ih (pre ++ [channelLlr p (flipAt tx errors)]) (plain a (.llr (channelLlr p (flipAt tx errors)))).1 (by
          intro w hw'
          rcases List.mem_append.1 hw' with h | h
          · exact hpre w h
          · rw [List.mem_singleton.1 h]; exact hch) (fun x hx => hw x (by simp [hx]))
      rw [run_state] at ht
      have e1 : (plain a (.llr (channelLlr p (flipAt tx errors)))).2.estimate.length = tx.length := by
        have := congrArg Prod.fst (hp a (channelLlr p (flipAt tx errors)))
        simp only at this
        rw [this, hdec, hhl]
      obtain ⟨w, g1, g2, _, _, _⟩ := c72_returned c cls ldpc _ _ out ho
      have e2 : out.estimate.length = tx.length := by
        have := congrArg Prod.fst (hs (s0.run c cls ldpc pre).1.ldpc w)
        simp only at this
        rw [g2, this, hdec]
        obtain ⟨peak, handed, _, hh, hhl', hwl, _⟩ := c72_combines P.pos.le P.flip P.context P.model P.prefixed cls ldpc cs ls s0 hnew pre hpre
          _ hch 0 out ho (by rw [hl]; rfl)
        rw [hh] at g1
        cases g1
        unfold hardWord
        rw [List.length_map, hhl', hcl]
      unfold simLoop
      simp only [hr, bind, Except.bind, ldpcCoder, dudeCoder, ho, Except.map, c01_counts_differences _ _ 8 e1, c01_counts_differences _ _ 8 e2]
      rw [ht]
      exact ⟨_, rfl⟩
  cases words with
  | nil => exact absurd rfl hne
  | cons w ws =>
    obtain ⟨h, hl⟩ := loop (w :: ws) [] a (by simp) hw
    have hl : simLoop (ldpcCoder plain) (dudeCoder c cls ldpc) p a s0 (w :: ws) = .ok h := hl
    unfold simStep
    simp only [bind, Except.bind, hl]
    exact ⟨_, rfl⟩

/-- An LDPC decoder that takes what it is handed. -/
noncomputable def trusting : Ldpc Unit := fun _ inp => match inp with
  | .llr w => ((), ⟨hardWord w, w, true, 1, [], []⟩)
  | _ => ((), ⟨[], [], false, 20, [], []⟩)

/-- The hypotheses can be met: 500 words with their first bit received wrong in every other word. -/
example (cls : Labeler Unit) : ∃ s0, DudeDec.new C158.simulated () () = .ok s0 ∧ ∃ s,
    simStep (ldpcCoder trusting) (dudeCoder C158.simulated cls trusting) () s0 3 (33 / 1000)
      ((List.range 500).map fun i => ([false, false, true], if i % 2 = 0 then [0] else [])) = .ok s ∧ s.rect = s.pure ∧ s.recover = 0 := by
  obtain ⟨s0, hnew⟩ := (c72_constructor (σ := Unit) (Λ := Unit) C158.simulated () ()).2 (by norm_num [C158.simulated, dudeTenth])
  refine ⟨s0, hnew, ?_⟩
  have P : Params C158.simulated (33 / 1000) :=
    ⟨by norm_num [C158.simulated], by norm_num [C158.simulated], by norm_num [C158.simulated], by simp [C158.simulated], Nat.one_pos,
      by norm_num [C158.simulated, dudeTenth], Or.inr (by simp [C158.simulated, dudeTenth])⟩
  have hw : ∀ x ∈ (List.range 500).map fun i => (([false, false, true], if i % 2 = 0 then [0] else []) : List Bool × List Nat),
      (x.2.Nodup ∧ ∀ e ∈ x.2, e < x.1.length) ∧ C158.simulated.modelLength ≤ x.1.length := by
    intro x hx
    obtain ⟨i, _, rfl⟩ := List.mem_map.1 hx
    refine ⟨?_, by simp [C158.simulated, dudeTenth]⟩
    split <;> simp
  obtain ⟨s, h⟩ := c159_reports P rfl cls trusting () () s0 hnew (fun b => (b, true)) (fun _ => rfl) (fun _ _ => rfl) trusting ()
    (fun _ _ => rfl) 3 _ (by rw [Ne, List.map_eq_nil_iff, List.range_eq_nil]; omega) hw
  refine ⟨s, h, c159_same P cls trusting () () s0 hnew (fun b => (b, true)) (fun _ _ => rfl) trusting () (fun _ _ => rfl) 3 _ hw ?_ s h⟩
  rw [List.length_map, List.length_range]
  norm_num [C158.simulated]

end NR.C159

import Verif.Props.C57
import Verif.Props.C64
import Verif.Model.CombinedDecoder
/-
C68: what the combined decoders learn, and when they raise.
-/
namespace NR
open NR.Spec

variable {σ Λ : Type}

/-- The MAVLink prediction changes nothing but the caches of the field models. -/
theorem combPredict_pres (c : CombCfg) (s : Comb σ Λ) (obs : List ℝ) (label : Nat) (P : BufferModel ℝ → Prop)
    (hP : CachePreserved c.mav.stats P) (h : P s.mav.model) :
    ∃ model, (s.mavlinkPrediction c obs label).1 = { s with mav := { s.mav with model } } ∧ P model := by
  unfold Comb.mavlinkPrediction
  split
  · exact ⟨_, rfl, h⟩
  · exact ⟨_, rfl, h⟩
  · rename_i st _
    have h1 := bufPredict_pres c.mav.stats P hP s.mav.model (.bits (hardBits obs)) st h
    split
    · rename_i hp; rw [hp] at h1; exact ⟨_, rfl, h1⟩
    · rename_i model p hp
      rw [hp] at h1
      simp only
      split
      · split
        · exact ⟨_, rfl, h1⟩
        · rename_i llr _
          have h4 : P (c.mav.force model obs llr st (c.forcedBits p.bitProb p.bitStd)
              (c.mav.factor model.modelSize c.mav.validFactor)).1 := by
            unfold MavCfg.force
            have h3 := bufMean_pres c.mav.stats P hP model (c.forcedBits p.bitProb p.bitStd) (obs.length / 8) st h1
            split
            · exact h1
            · split
              · rename_i h; rw [h] at h3; exact h3
              · rename_i h
                rw [h] at h3
                split <;> exact h3
          split
          · rename_i h; rw [h] at h4; exact ⟨_, rfl, h4⟩
          · rename_i h
            rw [h] at h4
            split <;> exact ⟨_, rfl, h4⟩
      · exact ⟨_, rfl, h1⟩

/-- What a call does, case by case: it raises before the LDPC decoder is run; or the label is negative; or it gets through
to the learning. -/
theorem comb_cases (c : CombCfg) (cls : Labeler σ) (ldpc : Ldpc Λ) (s : Comb σ Λ) (ch : List ℝ)
    (P : BufferModel ℝ → Prop) (hP : CachePreserved c.mav.stats P) (h : P s.mav.model) :
    (∃ model cs run e, P model ∧ s.decode c cls ldpc ch =
      ⟨{ s with mav := { s.mav with model, cls := cs, running := run } }, none, [], none, .error e⟩) ∨
    (∃ cs run label, label < 0 ∧ s.decode c cls ldpc ch =
      ⟨{ s with mav := { s.mav with cls := cs, running := run, ldpc := (ldpc s.mav.ldpc (.llr ch)).1 } }, some ch, [], none,
        .ok ⟨(ldpc s.mav.ldpc (.llr ch)).2.estimate, (ldpc s.mav.ldpc (.llr ch)).2.llr, (ldpc s.mav.ldpc (.llr ch)).2.success,
          (ldpc s.mav.ldpc (.llr ch)).2.iterations, label⟩⟩) ∨
    (∃ model cs run inp0 inp, ∃ label : Nat, P model ∧
      Comb.mavlinkPrediction c { s with mav := { s.mav with cls := cs, running := run } } ch label =
        ({ s with mav := { s.mav with model, cls := cs, running := run } }, .ok inp0) ∧
      Comb.addEntropy c s ch inp0 label = .ok inp ∧
      s.decode c cls ldpc ch =
        Comb.decodeUpdate c ldpc { s with mav := { s.mav with model, cls := cs, running := run } } inp label (hardBits ch)) := by
  unfold Comb.decode
  split
  · exact Or.inl ⟨s.mav.model, s.mav.cls, s.mav.running, _, h, rfl⟩
  · rename_i bits _
    rcases hpk : pickLabel cls c.mav.nClusters c.mav.cluster s.mav.cls s.mav.running bits with ⟨cs, run, lab⟩
    simp only
    cases lab with
    | error e => exact Or.inl ⟨s.mav.model, cs, run, e, h, rfl⟩
    | ok label =>
      simp only
      split
      · rename_i hneg
        exact Or.inr (Or.inl ⟨cs, run, label, hneg, rfl⟩)
      · obtain ⟨model, hm, hPm⟩ := combPredict_pres c { s with mav := { s.mav with cls := cs, running := run } } ch label.toNat
          P hP h
        rcases hpr : Comb.mavlinkPrediction c { s with mav := { s.mav with cls := cs, running := run } } ch label.toNat with ⟨t, r⟩
        rw [hpr] at hm
        simp only at hm
        subst hm
        cases r with
        | error e => exact Or.inl ⟨model, cs, run, e, hPm, rfl⟩
        | ok inp0 =>
          simp only
          have hae : Comb.addEntropy c { s with mav := { s.mav with model, cls := cs, running := run } } ch inp0 label.toNat =
            Comb.addEntropy c s ch inp0 label.toNat := rfl
          rw [hae]
          cases ha : Comb.addEntropy c s ch inp0 label.toNat with
          | error e => exact Or.inl ⟨model, cs, run, e, hPm, rfl⟩
          | ok inp => exact Or.inr (Or.inr ⟨model, cs, run, inp0, inp, label.toNat, hPm, hpr, ha, rfl⟩)

/-- Every property of the field models is preserved if none is asked for. -/
theorem cache_true (O : StatOps Val ℝ) : CachePreserved O (fun (_ : BufferModel ℝ) => True) := fun _ _ _ _ _ _ => trivial

/-- The learning part: whether the MAVLink learning raised or not. -/
theorem combUpdate_cases (c : CombCfg) (ldpc : Ldpc Λ) (s : Comb σ Λ) (inp : List ℝ) (label : Nat) (rx : List Bool) :
    ∃ mav o, mav = (s.mav.decodeUpdate c.mav ldpc inp label rx).1 ∧ o = (ldpc s.mav.ldpc (.llr inp)).2 ∧
      ((∃ e, s.decodeUpdate c ldpc inp label rx =
        ⟨{ s with mav }, some inp, eventOf s.mav.structures.length label inp o rx, none, .error e⟩) ∨
      s.decodeUpdate c ldpc inp label rx =
        ⟨{ s with mav, ent := (s.ent.update c.ced (c.learnedBits (if o.success then o.estimate else rx)) label).1 },
          some inp, eventOf s.mav.structures.length label inp o rx,
          some (label, c.learnedBits (if o.success then o.estimate else rx)),
          (s.ent.update c.ced (c.learnedBits (if o.success then o.estimate else rx)) label).2.map fun _ =>
            ⟨o.estimate, o.llr, o.success, o.iterations, label⟩⟩) := by
  have ho : (s.mav.decodeUpdate c.mav ldpc inp label rx).2.1 = (ldpc s.mav.ldpc (.llr inp)).2 := by
    unfold Mav.decodeUpdate
    rcases ldpc s.mav.ldpc (.llr inp) with ⟨l', o⟩
    simp only
    split <;> rfl
  refine ⟨_, _, rfl, rfl, ?_⟩
  unfold Comb.decodeUpdate
  rcases hd : s.mav.decodeUpdate c.mav ldpc inp label rx with ⟨mav, o, r⟩
  rw [hd] at ho
  simp only at ho
  subst ho
  cases r with
  | error e => exact Or.inl ⟨e, rfl⟩
  | ok u => exact Or.inr rfl

/-! ### The whole codeword -/

/-- C68. A `CombinedDecoder` whose model length is not the length of the codeword learns no entropy model, and no call with a
label that is not negative returns - whatever the received words, the LDPC decoder and the classifier do. -/
theorem c68_never_returns {c : CombCfg} (hu : c.unified = false) (cls : Labeler σ) (ldpc : Ldpc Λ) (n : Nat)
    (hn : n ≠ c.modelLength) (hl : ∀ l i, (ldpc l i).2.estimate.length = n) (words : List (List ℝ))
    (hw : ∀ ch ∈ words, ch.length = n) (s : Comb σ Λ) :
    (Comb.run c cls ldpc s words).1.ent = s.ent ∧
    ∀ st ∈ (Comb.run c cls ldpc s words).2, ∀ r, st.result = .ok r → r.label < 0 := by
  have step : ∀ (s : Comb σ Λ) (ch : List ℝ), ch.length = n → (s.decode c cls ldpc ch).state.ent = s.ent ∧
      ∀ r, (s.decode c cls ldpc ch).result = .ok r → r.label < 0 := by
    intro s ch hch
    rcases comb_cases c cls ldpc s ch _ (cache_true _) trivial with ⟨model, cs, run, e, _, h⟩ | ⟨cs, run, label, hneg, h⟩ |
      ⟨model, cs, run, inp0, inp, label, _, _, _, h⟩
    · rw [h]; exact ⟨rfl, fun r hr => by cases hr⟩
    · rw [h]; exact ⟨rfl, fun r hr => by cases hr; exact hneg⟩
    · rw [h]
      obtain ⟨mav, o, _, ho, h | h⟩ := combUpdate_cases c ldpc
        { s with mav := { s.mav with model, cls := cs, running := run } } inp label (hardBits ch)
      · obtain ⟨e, h⟩ := h
        rw [h]; exact ⟨rfl, fun r hr => by cases hr⟩
      · rw [h]
        have hlen : (c.learnedBits (if o.success then o.estimate else hardBits ch)).length ≠ c.ced.modelLength := by
          unfold CombCfg.learnedBits
          rw [hu, if_neg (by simp)]
          have h1 : o.estimate.length = n := by rw [ho]; exact hl _ _
          have h2 : (hardBits ch).length = n := by simp [hardBits, hch]
          split
          · rw [h1]; exact hn
          · rw [h2]; exact hn
        have hup : ∀ (t : Ced Unit Unit), t.update c.ced (c.learnedBits (if o.success then o.estimate else hardBits ch)) label =
            (t, .error .incorrectBufferLength) := by
          intro t
          unfold Ced.update
          rw [if_neg (by simp [CombCfg.ced]), if_pos hlen]
        rw [hup]
        exact ⟨rfl, fun r hr => by cases hr⟩
  induction words generalizing s with
  | nil => exact ⟨rfl, fun st h => by cases h⟩
  | cons ch rest ih =>
    have h1 := step s ch (hw ch (List.mem_cons_self ..))
    have h2 := ih (fun x hx => hw x (List.mem_cons_of_mem _ hx)) (s.decode c cls ldpc ch).state
    simp only [Comb.run]
    refine ⟨h2.1.trans h1.1, ?_⟩
    intro st hst
    rcases List.mem_cons.1 hst with rfl | hst
    · exact h1.2
    · exact h2.2 st hst

/-- C68. The exception is IncorrectBufferLength: it is what every call raises that reaches `update_entropy_model`. -/
theorem c68_incorrect_length {c : CombCfg} (hu : c.unified = false) (cls : Labeler σ) (ldpc : Ldpc Λ) (n : Nat)
    (hn : n ≠ c.modelLength) (hl : ∀ l i, (ldpc l i).2.estimate.length = n) (s : Comb σ Λ) (ch : List ℝ)
    (hch : ch.length = n) {x : Nat × List Bool} (hx : (s.decode c cls ldpc ch).learned = some x) :
    (s.decode c cls ldpc ch).result = .error .incorrectBufferLength := by
  rcases comb_cases c cls ldpc s ch _ (cache_true _) trivial with ⟨model, cs, run, e, _, h⟩ | ⟨cs, run, label, hneg, h⟩ |
    ⟨model, cs, run, inp0, inp, label, _, _, _, h⟩
  · rw [h] at hx; cases hx
  · rw [h] at hx; cases hx
  · obtain ⟨mav, o, _, ho, h' | h'⟩ := combUpdate_cases c ldpc
      { s with mav := { s.mav with model, cls := cs, running := run } } inp label (hardBits ch)
    · obtain ⟨e, h'⟩ := h'
      rw [h, h'] at hx; cases hx
    · rw [h, h']
      have hlen : (c.learnedBits (if o.success then o.estimate else hardBits ch)).length ≠ c.ced.modelLength := by
        unfold CombCfg.learnedBits
        rw [hu, if_neg (by simp)]
        have h1 : o.estimate.length = n := by rw [ho]; exact hl _ _
        have h2 : (hardBits ch).length = n := by simp [hardBits, hch]
        split
        · rw [h1]; exact hn
        · rw [h2]; exact hn
      have hup : ∀ (t : Ced Unit Unit), t.update c.ced (c.learnedBits (if o.success then o.estimate else hardBits ch)) label =
          (t, .error .incorrectBufferLength) := by
        intro t
        unfold Ced.update
        rw [if_neg (by simp [CombCfg.ced]), if_pos hlen]
      rw [hup]
      rfl

/-- A cluster without an entropy model adds nothing. -/
theorem addEntropy_empty {c : CombCfg} {s : Comb σ Λ} {l : Nat} (he : s.ent.ents[l]? = some []) (hd : s.ent.dists[l]? = some [])
    (hda : s.ent.datas[l]? = some []) (ch inp : List ℝ) : s.addEntropy c ch inp l = .ok inp := by
  unfold Comb.addEntropy Comb.entropyPrediction
  rw [he, hd, hda]
  simp [maskIdx, structuralMask, bind, Except.bind]

/-- C68. A new `CombinedDecoder` without classifier and with a model length other than the length of the codeword, with a
predefined MAVLink model whose structures were not set or with an LDPC decoder that does not succeed: all calls raise
IncorrectBufferLength. -/
theorem c68_always_raises {c : CombCfg} (hu : c.unified = false) (hc : c.mav.nClusters = 1 ∨ (1 < c.mav.nClusters ∧ c.mav.cluster = false))
    (cls : Labeler σ) (ldpc : Ldpc Λ) (n : Nat) (hn : n ≠ c.modelLength) (hl : ∀ l i, (ldpc l i).2.estimate.length = n)
    (hs : c.mav.learning = false ∨ ∀ l i, (ldpc l i).2.success = false) (model : BufferModel ℝ) (cs : σ) (ls : Λ)
    (words : List (List ℝ)) (hw : ∀ ch ∈ words, ch.length = n) :
    ∀ st ∈ (Comb.run c cls ldpc (Comb.new c.mav.nClusters model cs ls) words).2, st.result = .error .incorrectBufferLength := by
  have hpos : 0 < c.mav.nClusters := by rcases hc with h | h <;> omega
  have key : ∀ (words : List (List ℝ)), (∀ ch ∈ words, ch.length = n) → ∀ (s : Comb σ Λ),
      s.mav.structures = List.replicate c.mav.nClusters none → s.ent = Ced.new c.mav.nClusters () () →
      ∀ st ∈ (Comb.run c cls ldpc s words).2, st.result = .error .incorrectBufferLength := by
    intro words
    induction words with
    | nil => intro _ s _ _ st h; cases h
    | cons ch rest ih =>
      intro hw s hst hent
      have hch := hw ch (List.mem_cons_self ..)
      -- the label
      obtain ⟨run, lab, hlab, hpk⟩ : ∃ run : Int, ∃ lab : Nat, lab < c.mav.nClusters ∧
          pickLabel cls c.mav.nClusters c.mav.cluster s.mav.cls s.mav.running [] = (s.mav.cls, run, .ok (lab : Int)) := by
        unfold pickLabel
        rcases hc with h | ⟨h, h'⟩
        · rw [if_neg (by omega)]; exact ⟨s.mav.running, 0, by omega, rfl⟩
        · rw [if_pos h, if_neg (by simp [h'])]
          have h0 := Int.emod_nonneg (s.mav.running + 1) (b := (c.mav.nClusters : Int)) (by omega)
          have h1 := Int.emod_lt_of_pos (s.mav.running + 1) (b := (c.mav.nClusters : Int)) (by omega)
          refine ⟨(s.mav.running + 1) % (c.mav.nClusters : Int), ((s.mav.running + 1) % (c.mav.nClusters : Int)).toNat, by omega, ?_⟩
          rw [Int.toNat_of_nonneg h0]
      have hif : (if 1 < c.mav.nClusters ∧ c.mav.cluster = true then takeIdx (hardBits ch) c.mav.idx else Except.ok []) =
          .ok [] := by
        rw [if_neg]
        rintro ⟨h1, h2⟩
        rcases hc with h | ⟨_, h⟩
        · omega
        · simp [h] at h2
      have hpred : ∀ t : Comb σ Λ, t.mav.structures = s.mav.structures → t.mavlinkPrediction c ch lab = (t, .ok ch) := by
        intro t ht
        unfold Comb.mavlinkPrediction
        rw [ht, hst, List.getElem?_replicate_of_lt hlab]
      have hadd : ∀ t : Comb σ Λ, t.ent = s.ent → t.addEntropy c ch ch lab = .ok ch := by
        intro t ht
        apply addEntropy_empty <;> rw [ht, hent] <;> simp [Ced.new, hlab]
      have hdec : s.decode c cls ldpc ch =
          Comb.decodeUpdate c ldpc { s with mav := { s.mav with running := run } } ch lab (hardBits ch) := by
        unfold Comb.decode
        rw [hif]
        simp only [hpk]
        rw [if_neg (by omega)]
        simp only [Int.toNat_natCast]
        rw [hpred { s with mav := { s.mav with running := run } } rfl]
        simp only
        rw [hadd { s with mav := { s.mav with running := run } } rfl]
      have hmu : (s.mav.structures.length = c.mav.nClusters) := by rw [hst]; simp
      have hpp : pyPos s.mav.structures.length (lab : Int) = some lab := by
        unfold pyPos; rw [if_pos (by omega), if_pos (by omega)]; simp
      have hmav : Mav.decodeUpdate c.mav ldpc { s.mav with running := run } ch lab (hardBits ch) =
          ({ s.mav with running := run, ldpc := (ldpc s.mav.ldpc (.llr ch)).1 }, (ldpc s.mav.ldpc (.llr ch)).2, .ok ()) := by
        unfold Mav.decodeUpdate
        simp only [hpp]
        unfold Mav.learn
        rcases hs with h | h
        · simp [h]
        · cases c.mav.learning with
          | false => simp
          | true =>
            rw [if_neg (by simp), if_neg (by rw [h]; simp)]
            have : s.mav.structures.getD lab none = none := by rw [hst]; simp [hlab]
            simp only [this]
      have hlen : (c.learnedBits (if (ldpc s.mav.ldpc (.llr ch)).2.success then (ldpc s.mav.ldpc (.llr ch)).2.estimate
          else hardBits ch)).length ≠ c.ced.modelLength := by
        unfold CombCfg.learnedBits
        rw [hu, if_neg (by simp)]
        split
        · rw [hl]; exact hn
        · rw [show (hardBits ch).length = n by simp [hardBits, hch]]; exact hn
      have hup : s.ent.update c.ced (c.learnedBits (if (ldpc s.mav.ldpc (.llr ch)).2.success
          then (ldpc s.mav.ldpc (.llr ch)).2.estimate else hardBits ch)) lab = (s.ent, .error .incorrectBufferLength) := by
        unfold Ced.update
        rw [if_neg (by simp [CombCfg.ced]), if_pos hlen]
      have hres : (s.decode c cls ldpc ch).result = .error .incorrectBufferLength ∧
          (s.decode c cls ldpc ch).state.mav.structures = s.mav.structures ∧ (s.decode c cls ldpc ch).state.ent = s.ent := by
        rw [hdec]
        unfold Comb.decodeUpdate
        simp only [hmav, hup]
        exact ⟨rfl, by trivial⟩
      intro st hmem
      rcases List.mem_cons.1 hmem with rfl | hmem
      · exact hres.1
      · exact ih (fun x hx => hw x (List.mem_cons_of_mem _ hx)) _ (hres.2.1.trans hst) (hres.2.2.trans hent)
          st hmem
  exact key words hw _ rfl rfl

/-! ### What is learned -/

/-- The model bits fit: the unified decoder with words of at least `model_length` bits, or words of exactly that length. -/
def CombCfg.Fits (c : CombCfg) (n : Nat) : Prop := (c.unified = true ∧ c.modelLength ≤ n) ∨ n = c.modelLength

theorem learnedBits_fit {c : CombCfg} {n : Nat} (hf : c.Fits n) {w : List Bool} (hw : w.length = n) :
    (c.learnedBits w).length = c.modelLength ∧ c.learnedBits w = w.take c.modelLength := by
  unfold CombCfg.learnedBits
  rcases hf with ⟨h1, h2⟩ | h
  · rw [h1, if_pos rfl]; exact ⟨by rw [List.length_take]; omega, rfl⟩
  · split
    · exact ⟨by rw [List.length_take]; omega, rfl⟩
    · exact ⟨by omega, (List.take_of_length_le (by omega)).symm⟩

/-- The state has an entropy model (maybe an empty one) for the label of a call that gets through to the learning. -/
theorem addEntropy_some {c : CombCfg} {s : Comb σ Λ} {ch inp0 inp : List ℝ} {l : Nat} (h : s.addEntropy c ch inp0 l = .ok inp) :
    l < s.ent.datas.length ∧ l < s.ent.dists.length ∧ l < s.ent.ents.length := by
  unfold Comb.addEntropy at h
  have hx : ∃ x, s.entropyPrediction c l = .ok x := by
    cases hp : s.entropyPrediction c l with
    | ok x => exact ⟨x, rfl⟩
    | error e => rw [hp] at h; cases h
  obtain ⟨x, hx⟩ := hx
  unfold Comb.entropyPrediction at hx
  split at hx
  · rename_i h1 h2 h3
    exact ⟨(List.getElem?_eq_some_iff.1 h3).1, (List.getElem?_eq_some_iff.1 h2).1, (List.getElem?_eq_some_iff.1 h1).1⟩
  · cases hx

/-- What a call does to the entropy models, case by case. -/
theorem comb_ent_cases (c : CombCfg) (cls : Labeler σ) (ldpc : Ldpc Λ) (s : Comb σ Λ) (ch : List ℝ) :
    ((s.decode c cls ldpc ch).learned = none ∧ (s.decode c cls ldpc ch).state.ent = s.ent ∧
      ∀ r, (s.decode c cls ldpc ch).result = .ok r → r.label < 0 ∧ (s.decode c cls ldpc ch).handed = some ch) ∨
    ∃ (label : Nat) (o : LdpcOut) (inp : List ℝ) (ls : Λ), o = (ldpc ls (.llr inp)).2 ∧
      (s.decode c cls ldpc ch).handed = some inp ∧
      label < s.ent.datas.length ∧ label < s.ent.dists.length ∧ label < s.ent.ents.length ∧
      (s.decode c cls ldpc ch).learned = some (label, c.learnedBits (if o.success then o.estimate else hardBits ch)) ∧
      (s.decode c cls ldpc ch).state.ent =
        (s.ent.update c.ced (c.learnedBits (if o.success then o.estimate else hardBits ch)) label).1 ∧
      (s.decode c cls ldpc ch).result =
        (s.ent.update c.ced (c.learnedBits (if o.success then o.estimate else hardBits ch)) label).2.map fun _ =>
            ⟨o.estimate, o.llr, o.success, o.iterations, label⟩ := by
  rcases comb_cases c cls ldpc s ch _ (cache_true _) trivial with ⟨model, cs, run, e, _, h⟩ | ⟨cs, run, label, hneg, h⟩ |
    ⟨model, cs, run, inp0, inp, label, _, _, ha, h⟩
  · rw [h]; exact Or.inl ⟨rfl, rfl, fun r hr => by cases hr⟩
  · rw [h]; exact Or.inl ⟨rfl, rfl, fun r hr => by cases hr; exact ⟨hneg, rfl⟩⟩
  · obtain ⟨mav, o, _, ho, h' | h'⟩ := combUpdate_cases c ldpc
      { s with mav := { s.mav with model, cls := cs, running := run } } inp label (hardBits ch)
    · obtain ⟨e, h'⟩ := h'
      rw [h, h']; exact Or.inl ⟨rfl, rfl, fun r hr => by cases hr⟩
    · obtain ⟨a1, a2, a3⟩ := addEntropy_some ha
      rw [h, h']
      exact Or.inr ⟨label, o, inp, _, ho, rfl, a1, a2, a3, rfl, rfl, rfl⟩

/-- C68. While the label is negative - the classifier is in training - the received word goes to the LDPC decoder as it is,
and neither the entropy models nor the structures nor the field models change. -/
theorem c68_training (c : CombCfg) (cls : Labeler σ) (ldpc : Ldpc Λ) (s : Comb σ Λ) (ch : List ℝ) (r : CombOut)
    (h : (s.decode c cls ldpc ch).result = .ok r) (hr : r.label < 0) :
    (s.decode c cls ldpc ch).handed = some ch ∧ (s.decode c cls ldpc ch).state.ent = s.ent ∧
    (s.decode c cls ldpc ch).state.mav.structures = s.mav.structures ∧
    (s.decode c cls ldpc ch).state.mav.model = s.mav.model ∧
    r.estimate = (ldpc s.mav.ldpc (.llr ch)).2.estimate ∧ r.success = (ldpc s.mav.ldpc (.llr ch)).2.success := by
  rcases comb_cases c cls ldpc s ch _ (cache_true _) trivial with ⟨model, cs, run, e, _, h'⟩ | ⟨cs, run, label, hneg, h'⟩ |
    ⟨model, cs, run, inp0, inp, label, _, _, ha, h'⟩
  · rw [h'] at h; cases h
  · rw [h'] at h ⊢
    cases h
    exact ⟨rfl, rfl, rfl, rfl, rfl, rfl⟩
  · obtain ⟨mav, o, _, ho, h2 | h2⟩ := combUpdate_cases c ldpc
      { s with mav := { s.mav with model, cls := cs, running := run } } inp label (hardBits ch)
    · obtain ⟨e, h2⟩ := h2
      rw [h', h2] at h; cases h
    · rw [h', h2] at h
      simp only at h
      cases hu : (s.ent.update c.ced (c.learnedBits (if o.success then o.estimate else hardBits ch)) label).2 with
      | error e => rw [hu] at h; cases h
      | ok u => rw [hu] at h; cases h; simp at hr; omega

/-- C68. A call that reaches `update_entropy_model` with bits that fit does not raise IncorrectBufferLength: it returns if
the window then holds both a zero and a one somewhere, and raises IndexError otherwise. -/
theorem c68_fits_returns {c : CombCfg} {n : Nat} (hf : c.Fits n) (hm : 0 < c.modelLength) (hw : c.window ≠ some 0)
    (cls : Labeler σ) (ldpc : Ldpc Λ) (hl : ∀ l i, (ldpc l i).2.estimate.length = n) (s : Comb σ Λ) (ch : List ℝ)
    (hch : ch.length = n) {l : Nat} {b : List Bool} (hx : (s.decode c cls ldpc ch).learned = some (l, b)) :
    b.length = c.modelLength ∧ ∃ data, (s.decode c cls ldpc ch).state.ent.datas[l]? = some data ∧
      (BothLetters c.modelLength data → ∃ r, (s.decode c cls ldpc ch).result = .ok r) ∧
      (¬ BothLetters c.modelLength data → (s.decode c cls ldpc ch).result = .error .indexError) := by
  rcases comb_ent_cases c cls ldpc s ch with ⟨h1, _⟩ | ⟨label, o, inp, ls, ho, _, d1, d2, d3, hlearn, hst, hres⟩
  · rw [h1] at hx; cases hx
  · rw [hlearn] at hx
    cases hx
    have hb := (learnedBits_fit hf (w := if o.success then o.estimate else hardBits ch) (by
      split
      · rw [ho]; exact hl _ _
      · simp [hardBits, hch])).1
    have hold := List.getElem?_eq_getElem d1
    obtain ⟨_, u2, u3⟩ := update_dist (c := c.ced) rfl hm (s := s.ent)
      (bits := c.learnedBits (if o.success then o.estimate else hardBits ch)) hold d2 d3 (growData_ne hw _ _)
    refine ⟨hb, _, by rw [hst]; exact update_data (c := c.ced) rfl s.ent hb hold, ?_, ?_⟩
    · intro h
      rw [hres, u2 hb h]
      exact ⟨_, rfl⟩
    · intro h
      rw [hres, u3 hb h]
      rfl

/-- The vectors the calls gave to the entropy model of cluster `l`. -/
def combLearnedBy (l : Nat) (steps : List (CombStep σ Λ)) : List (List Bool) :=
  steps.filterMap fun x => match x.learned with
    | some (k, b) => if k = l then some b else none
    | none => none

/-- C68. After any sequence of calls, returning or raising, the entropy model of a cluster holds the last `window_length`
vectors (all without a window) given to it, in order. -/
theorem c68_window {c : CombCfg} {n : Nat} (hf : c.Fits n) (hm : 0 < c.modelLength) (cls : Labeler σ) (ldpc : Ldpc Λ)
    (hl : ∀ l i, (ldpc l i).2.estimate.length = n) (model : BufferModel ℝ) (cs : σ) (ls : Λ) (words : List (List ℝ))
    (hw : ∀ ch ∈ words, ch.length = n) (l : Nat) (hln : l < c.mav.nClusters) :
    (Comb.run c cls ldpc (Comb.new c.mav.nClusters model cs ls) words).1.ent.datas[l]? =
      some (keep c.window (combLearnedBy l (Comb.run c cls ldpc (Comb.new c.mav.nClusters model cs ls) words).2)) := by
  have step : ∀ (s : Comb σ Λ) (ch : List ℝ) (h : List (List Bool)), ch.length = n → (∀ x ∈ h, x.length = c.modelLength) →
      s.ent.datas[l]? = some (keep c.window h) →
      (s.decode c cls ldpc ch).state.ent.datas[l]? = some (keep c.window (h ++ combLearnedBy l [s.decode c cls ldpc ch])) ∧
      ∀ x ∈ combLearnedBy l [s.decode c cls ldpc ch], x.length = c.modelLength := by
    intro s ch h hch hlen hs
    rcases comb_ent_cases c cls ldpc s ch with ⟨h1, h2, _⟩ | ⟨label, o, inp, lst, ho, _, d1, d2, d3, hlearn, hst, hres⟩
    · simp only [combLearnedBy, List.filterMap_cons, h1, List.filterMap_nil, List.append_nil, h2]
      exact ⟨hs, by simp⟩
    · have hb := (learnedBits_fit hf (w := if o.success then o.estimate else hardBits ch) (by
        split
        · rw [ho]; exact hl _ _
        · simp [hardBits, hch])).1
      simp only [combLearnedBy, List.filterMap_cons, hlearn, List.filterMap_nil]
      rw [hst]
      by_cases hk : label = l
      · subst hk
        rw [if_pos rfl, update_data (c := c.ced) rfl s.ent hb hs, show c.ced.window = c.window from rfl,
          growData_keep hm _ _ _ hlen]
        refine ⟨rfl, ?_⟩
        intro x hx
        rw [List.mem_singleton.1 hx]
        exact hb
      · rw [if_neg hk]
        refine ⟨?_, by simp⟩
        rw [((update_other c.ced s.ent _ label).2.2.2.1 l (Ne.symm hk)).1, List.append_nil]
        exact hs
  have key : ∀ (words : List (List ℝ)) (s : Comb σ Λ) (h : List (List Bool)), (∀ ch ∈ words, ch.length = n) →
      (∀ x ∈ h, x.length = c.modelLength) → s.ent.datas[l]? = some (keep c.window h) →
      (Comb.run c cls ldpc s words).1.ent.datas[l]? =
        some (keep c.window (h ++ combLearnedBy l (Comb.run c cls ldpc s words).2)) := by
    intro words
    induction words with
    | nil => intro s h _ _ hs; simpa [Comb.run, combLearnedBy] using hs
    | cons ch rest ih =>
      intro s h hw hlen hs
      obtain ⟨h1, h2⟩ := step s ch h (hw ch (List.mem_cons_self ..)) hlen hs
      have := ih (s.decode c cls ldpc ch).state (h ++ combLearnedBy l [s.decode c cls ldpc ch])
        (fun x hx => hw x (List.mem_cons_of_mem _ hx))
        (by
          intro x hx
          rcases List.mem_append.1 hx with hx | hx
          · exact hlen x hx
          · exact h2 x hx) h1
      simp only [Comb.run]
      rw [this, List.append_assoc]
      simp only [combLearnedBy, ← List.filterMap_append, List.singleton_append]
  have := key words (Comb.new c.mav.nClusters model cs ls) [] hw (by simp) (by
    rw [Comb.new, Ced.new, List.getElem?_replicate_of_lt hln]
    cases c.window <;> simp [keep, lastN])
  simpa using this

/-- C68. What a returning call gave to the entropy model: nothing while the label is negative, otherwise, for the returned
label, the first `model_length` bits of the returned estimate if decoding succeeded and of the received word if not. -/
theorem c68_learned {c : CombCfg} {n : Nat} (hf : c.Fits n) (cls : Labeler σ) (ldpc : Ldpc Λ)
    (hl : ∀ l i, (ldpc l i).2.estimate.length = n) (s : Comb σ Λ) (ch : List ℝ) (hch : ch.length = n) (r : CombOut)
    (h : (s.decode c cls ldpc ch).result = .ok r) :
    (s.decode c cls ldpc ch).learned =
      if r.label < 0 then none
      else some (r.label.toNat, (if r.success then r.estimate else hardWord ch).take c.modelLength) := by
  rcases comb_ent_cases c cls ldpc s ch with ⟨h1, _, h3⟩ | ⟨label, o, inp, lst, ho, _, d1, d2, d3, hlearn, hst, hres⟩
  · rw [h1, if_pos (h3 r h).1]
  · have hb := (learnedBits_fit hf (w := if o.success then o.estimate else hardBits ch) (by
      split
      · rw [ho]; exact hl _ _
      · simp [hardBits, hch])).2
    rw [hres] at h
    cases hu : (s.ent.update c.ced (c.learnedBits (if o.success then o.estimate else hardBits ch)) label).2 with
    | error e => rw [hu] at h; cases h
    | ok u =>
      rw [hu] at h
      cases h
      rw [hlearn, hb]
      simp only
      rw [if_neg (show ¬ ((label : Int) < 0) by omega)]
      rfl

/-- C68. The distribution and the entropies a returning call leaves for its cluster are those of its window. -/
theorem c68_distribution {c : CombCfg} (hm : 0 < c.modelLength) (hw : c.window ≠ some 0) (cls : Labeler σ) (ldpc : Ldpc Λ)
    (s : Comb σ Λ) (ch : List ℝ) (r : CombOut) (h : (s.decode c cls ldpc ch).result = .ok r) (h0 : 0 ≤ r.label) :
    ∃ data, (s.decode c cls ldpc ch).state.ent.datas[r.label.toNat]? = some data ∧ BothLetters c.modelLength data ∧
      (s.decode c cls ldpc ch).state.ent.dists[r.label.toNat]? = some ((List.range c.modelLength).map fun (j : Nat) =>
        (1 - min 1 (max 0 ((oneShare data j - c.bitFlip) / (1 - 2 * c.bitFlip))),
          min 1 (max 0 ((oneShare data j - c.bitFlip) / (1 - 2 * c.bitFlip))))) ∧
      (s.decode c cls ldpc ch).state.ent.ents[r.label.toNat]? = some ((List.range c.modelLength).map fun (j : Nat) =>
        Real.binEntropy (min 1 (max 0 ((oneShare data j - c.bitFlip) / (1 - 2 * c.bitFlip)))) / Real.log 2) := by
  rcases comb_ent_cases c cls ldpc s ch with ⟨h1, _, h3⟩ | ⟨label, o, inp, lst, ho, _, d1, d2, d3, hlearn, hst, hres⟩
  · exact absurd (h3 r h).1 (by omega)
  · rw [hres] at h
    cases hu : (s.ent.update c.ced (c.learnedBits (if o.success then o.estimate else hardBits ch)) label).2 with
    | error e => rw [hu] at h; cases h
    | ok u =>
      rw [hu] at h
      cases h
      have hold := List.getElem?_eq_getElem d1
      have hb : (c.learnedBits (if o.success then o.estimate else hardBits ch)).length = c.ced.modelLength := by
        by_contra hne
        have : (s.ent.update c.ced (c.learnedBits (if o.success then o.estimate else hardBits ch)) label).2 =
            .error .incorrectBufferLength := by
          unfold Ced.update
          rw [if_neg (by simp [CombCfg.ced]), if_pos hne]
        rw [this] at hu
        cases hu
      obtain ⟨u1, _, _⟩ := update_dist (c := c.ced) rfl hm (s := s.ent)
        (bits := c.learnedBits (if o.success then o.estimate else hardBits ch)) hold d2 d3 (growData_ne hw _ _)
      obtain ⟨b1, b2, b3⟩ := u1 hu
      simp only [Int.toNat_natCast]
      refine ⟨_, by rw [hst]; exact update_data (c := c.ced) rfl s.ent hb hold, b1, ?_, ?_⟩
      · rw [hst, b2]
        simp only [corrected, npClip]
        rfl
      · rw [hst, b3]
        simp only [corrected, npClip]
        rfl

/-- The invariant of the MAVLink decoder holds for the MAVLink part of a combined decoder that learns. -/
theorem comb_mavInv {c : CombCfg} (hl : c.mav.learning = true) (cls : Labeler σ) (ldpc : Ldpc Λ) (w : Option Nat) (cs : σ)
    (l : Λ) (words : List (List ℝ)) :
    MavInv c.mav c.mav.nClusters w (Comb.run c cls ldpc (Comb.new c.mav.nClusters (BufferModel.new w) cs l) words).1.mav
      ((Comb.run c cls ldpc (Comb.new c.mav.nClusters (BufferModel.new w) cs l) words).2.flatMap CombStep.events) := by
  classical
  have step : ∀ (s : Comb σ Λ) (ch : List ℝ) (evs : List MavEvent), MavInv c.mav c.mav.nClusters w s.mav evs →
      MavInv c.mav c.mav.nClusters w (s.decode c cls ldpc ch).state.mav (evs ++ (s.decode c cls ldpc ch).events) := by
    intro s ch evs h
    have hinv : ∀ (model : BufferModel ℝ) (cs : σ) (run : Int) (lst : Λ),
        (SameContent model s.mav.model ∧ BufInv c.mav.stats w
          (fun name => ((learnedWords c.mav.infoBytes [] evs).filter (fun a => Addable a)).flatMap (takes name)) model.models) →
        MavInv c.mav c.mav.nClusters w { s.mav with model, cls := cs, running := run, ldpc := lst } evs :=
      fun model cs run lst ⟨h2, h3⟩ => ⟨h.structures, h2.window.trans h.window, h2.size.trans h.size, h3⟩
    rcases comb_cases c cls ldpc s ch (fun bm => SameContent bm s.mav.model ∧ BufInv c.mav.stats w
          (fun name => ((learnedWords c.mav.infoBytes [] evs).filter (fun a => Addable a)).flatMap (takes name)) bm.models)
        (fun bm name m r hl hb =>
          ⟨cache_same c.mav.stats s.mav.model bm name m r hl hb.1, cache_bufInv c.mav.stats w _ bm name m r hl hb.2⟩)
        ⟨.rfl' _, h.fields⟩ with ⟨model, cs, run, e, hP, h'⟩ | ⟨cs, run, label, hneg, h'⟩ |
      ⟨model, cs, run, inp0, inp, label, hP, _, ha, h'⟩
    · rw [h', List.append_nil]
      exact hinv model cs run s.mav.ldpc hP
    · rw [h', List.append_nil]
      exact hinv s.mav.model cs run _ ⟨.rfl' _, h.fields⟩
    · have h3 := mavInv_decodeUpdate hl (hinv model cs run s.mav.ldpc hP) ldpc inp label (hardBits ch)
      have ho' : (Mav.decodeUpdate c.mav ldpc { s.mav with model, cls := cs, running := run } inp label (hardBits ch)).2.1 =
          (ldpc s.mav.ldpc (.llr inp)).2 := by
        unfold Mav.decodeUpdate
        rcases ldpc s.mav.ldpc (.llr inp) with ⟨l', o⟩
        simp only
        split <;> rfl
      rw [ho'] at h3
      obtain ⟨mav, o, hmav, ho, h2 | h2⟩ := combUpdate_cases c ldpc
        { s with mav := { s.mav with model, cls := cs, running := run } } inp label (hardBits ch)
      · obtain ⟨e, h2⟩ := h2
        rw [h', h2, hmav, ho]
        exact h3
      · rw [h', h2, hmav, ho]
        exact h3
  have key : ∀ (words : List (List ℝ)) (s : Comb σ Λ) (evs : List MavEvent), MavInv c.mav c.mav.nClusters w s.mav evs →
      MavInv c.mav c.mav.nClusters w (Comb.run c cls ldpc s words).1.mav
        (evs ++ (Comb.run c cls ldpc s words).2.flatMap CombStep.events) := by
    intro words
    induction words with
    | nil => intro s evs h; simpa [Comb.run] using h
    | cons ch rest ih =>
      intro s evs h
      have := ih _ _ (step s ch evs h)
      simpa only [Comb.run, List.flatMap_cons, List.append_assoc] using this
  have h := key words (Comb.new c.mav.nClusters (BufferModel.new w) cs l) [] (mavInv_new c.mav c.mav.nClusters w cs l)
  rwa [List.nil_append] at h

open Classical in
/-- C68. The MAVLink part of a learning decoder learns like the MAVLink decoder (C57), after any sequence of calls, also those
that raise because of the entropy model: the structure of each cluster is what is found in the first word of that cluster that
was decoded; the field models hold the windows of the values taken in the words learned. -/
theorem c68_mavlink {c : CombCfg} (hl : c.mav.learning = true) (cls : Labeler σ) (ldpc : Ldpc Λ) (w : Option Nat) (cs : σ)
    (l : Λ) (words : List (List ℝ)) (s : Comb σ Λ) (evs : List MavEvent) (L : List (BufArg × List (Nat × Nat)))
    (hs : s = (Comb.run c cls ldpc (Comb.new c.mav.nClusters (BufferModel.new w) cs l) words).1)
    (hev : evs = (Comb.run c cls ldpc (Comb.new c.mav.nClusters (BufferModel.new w) cs l) words).2.flatMap CombStep.events)
    (hL : L = (learnedWords c.mav.infoBytes [] evs).filter (fun a => Addable a)) :
    s.mav.structures = (List.range c.mav.nClusters).map (structureAfter c.mav.infoBytes evs) ∧
    s.mav.model.modelSize = sizeAfter w L.length ∧
    ∀ name, ((s.mav.model.models.lookup name).map FieldModel.samples).getD [] = windowed w (L.flatMap (takes name)) := by
  have h : MavInv c.mav c.mav.nClusters w s.mav evs := by rw [hs, hev]; exact comb_mavInv hl cls ldpc w cs l words
  refine ⟨h.structures, by rw [hL]; exact h.size, fun name => ?_⟩
  have hf := h.fields
  rw [← hL] at hf
  cases hn : s.mav.model.models.lookup name with
  | none =>
    have := (hf.absent name).1 hn
    rw [this]
    exact (windowed_eq_nil.2 rfl).symm
  | some m =>
    obtain ⟨t, hm⟩ := hf.model name m hn
    simpa using hm.samples

/-! ### What is handed to the LDPC decoder -/

theorem masked_map {α β : Type} (f : α → β) (a : List α) (mask : List Bool) :
    ((a.zip mask).filterMap fun x => if x.2 then some x.1 else none).map f =
      ((a.map f).zip mask).filterMap fun x => if x.2 then some x.1 else none := by
  induction a generalizing mask with
  | nil => rfl
  | cons x a ih =>
    cases mask with
    | nil => rfl
    | cons m mask => cases m <;> simp [ih]

theorem masked_mem {idx : List Nat} {thr : ℝ} {ents : List ℝ} (hl : ents.length = idx.length) (j : Nat) :
    j ∈ ((idx.zip (structuralMask thr ents)).filterMap fun x => if x.2 then some x.1 else none) ↔
      ∃ k, ∃ hk : k < idx.length, LowAt thr ents k ∧ idx[k] = j := by
  classical
  have hml : (structuralMask thr ents).length = idx.length := by simp [structuralMask, hl]
  rw [List.mem_filterMap]
  constructor
  · rintro ⟨⟨a, b⟩, hab, hj⟩
    obtain ⟨k, hk, hab'⟩ := List.mem_iff_getElem.1 hab
    rw [List.getElem_zip] at hab'
    have hk1 : k < idx.length := by simp only [List.length_zip] at hk; omega
    have hk2 : k < (structuralMask thr ents).length := by omega
    have h1 : idx[k] = a := (Prod.mk.inj hab').1
    have h2 : (structuralMask thr ents)[k] = b := (Prod.mk.inj hab').2
    by_cases hb : b = true
    · simp only [hb, if_true, Option.some.injEq] at hj
      refine ⟨k, hk1, ?_, by rw [h1, hj]⟩
      have := mask_low thr ents k
      rw [List.getD_eq_getElem?_getD, List.getElem?_eq_getElem hk2, Option.getD_some, h2, hb] at this
      exact of_decide_eq_true this.symm
    · simp [hb] at hj
  · rintro ⟨k, hk, hlow, hj⟩
    have hk2 : k < (structuralMask thr ents).length := by omega
    refine ⟨(idx[k], (structuralMask thr ents)[k]), ?_, ?_⟩
    · rw [List.mem_iff_getElem]
      exact ⟨k, by simp only [List.length_zip]; omega, by rw [List.getElem_zip]⟩
    · have := mask_low thr ents k
      rw [List.getD_eq_getElem?_getD, List.getElem?_eq_getElem hk2, Option.getD_some] at this
      rw [this]
      simp [hlow, hj]

/-- C68. A returning call with a label that is not negative hands to the LDPC decoder the word of the MAVLink prediction with
the contribution of the entropy model added; the prediction is the received word as long as the cluster has no structure. -/
theorem c68_handed (c : CombCfg) (cls : Labeler σ) (ldpc : Ldpc Λ) (s : Comb σ Λ) (ch : List ℝ) (r : CombOut)
    (h : (s.decode c cls ldpc ch).result = .ok r) (h0 : 0 ≤ r.label) :
    ∃ (s1 : Comb σ Λ) (inp0 inp : List ℝ), (Comb.mavlinkPrediction c s1 ch r.label.toNat).2 = .ok inp0 ∧ s1.ent = s.ent ∧
      s1.mav.structures = s.mav.structures ∧ s1.mav.model = s.mav.model ∧
      s.addEntropy c ch inp0 r.label.toNat = .ok inp ∧ (s.decode c cls ldpc ch).handed = some inp ∧
      r.estimate = (ldpc s.mav.ldpc (.llr inp)).2.estimate ∧ r.success = (ldpc s.mav.ldpc (.llr inp)).2.success ∧
      (s.mav.structures[r.label.toNat]? = some none → inp0 = ch) := by
  rcases comb_cases c cls ldpc s ch _ (cache_true _) trivial with ⟨model, cs, run, e, _, h'⟩ | ⟨cs, run, label, hneg, h'⟩ |
    ⟨model, cs, run, inp0, inp, label, _, hp, ha, h'⟩
  · rw [h'] at h; cases h
  · rw [h'] at h; cases h; simp only at h0; omega
  · obtain ⟨mav, o, _, ho, h2 | h2⟩ := combUpdate_cases c ldpc
      { s with mav := { s.mav with model, cls := cs, running := run } } inp label (hardBits ch)
    · obtain ⟨e, h2⟩ := h2
      rw [h', h2] at h; cases h
    · rw [h', h2] at h
      simp only at h
      cases hu : (s.ent.update c.ced (c.learnedBits (if o.success then o.estimate else hardBits ch)) label).2 with
      | error e => rw [hu] at h; cases h
      | ok u =>
        rw [hu] at h
        cases h
        simp only [Int.toNat_natCast]
        refine ⟨{ s with mav := { s.mav with cls := cs, running := run } }, inp0, inp, by rw [hp], rfl, rfl, rfl, ha,
          by rw [h', h2], by rw [ho], by rw [ho], ?_⟩
        intro hn
        unfold Comb.mavlinkPrediction at hp
        simp only [hn] at hp
        exact (Except.ok.inj (Prod.mk.inj hp).2).symm

open Classical in
/-- C68. The contribution of the entropy model: at the positions of the low-entropy model bits only, and only with at least two
words in the window, the confidence times the model's log-likelihood ratio, clipped to plus or minus the clipping factor times
the largest magnitude received; elsewhere the word is unchanged. (Exception: if the only low-entropy bit is bit 0 of the
codeword, the model is ignored.) -/
theorem c68_entropy {c : CombCfg} (s : Comb σ Λ) (hnd : c.mav.idx.Nodup) (hi : c.mav.idx.length = c.modelLength) {l : Nat}
    {ents : List ℝ} {dist : List (ℝ × ℝ)} {data : List (List Bool)}
    (he : s.ent.ents[l]? = some ents) (hd : s.ent.dists[l]? = some dist) (hda : s.ent.datas[l]? = some data)
    (hel : ents.length = c.modelLength) (hdl : dist.length = c.modelLength) (hrect : ∀ x ∈ data, x ≠ [])
    (ch inp : List ℝ) (hlt : ∀ i ∈ c.mav.idx, i < inp.length) {m : ℝ} (hm : maxAbs ch = .ok m) :
    ∃ w, s.addEntropy c ch inp l = .ok w ∧ w.length = inp.length ∧
      (∀ i, i ∉ c.mav.idx → w.getD i 0 = inp.getD i 0) ∧
      (∀ k (hk : k < c.mav.idx.length), w.getD c.mav.idx[k] 0 = inp.getD c.mav.idx[k] 0 +
        if LowAt c.threshold ents k ∧ 1 < data.length ∧
          (∃ k', ∃ hk' : k' < c.mav.idx.length, LowAt c.threshold ents k' ∧ c.mav.idx[k'] ≠ 0) then
          min (c.clipping * m) (max (-(c.clipping * m))
            (1 / (1 + Real.exp (-((data.length : ℝ) - c.mav.center) * c.mav.slope)) *
              Real.log ((floatEps + (dist.getD k (0, 0)).1) / ((dist.getD k (0, 0)).2 + floatEps)))) else 0) := by
  have hml : (structuralMask c.threshold ents).length = c.mav.idx.length := by simp [structuralMask, hel, hi]
  have hsize : (if data.flatten.length = 0 then 0 else data.length) = data.length := by
    split
    · rename_i h0
      cases data with
      | nil => rfl
      | cons x xs =>
        have := hrect x (List.mem_cons_self ..)
        simp only [List.flatten_cons, List.length_append] at h0
        have : x.length ≠ 0 := fun h => this (List.length_eq_zero_iff.1 h)
        omega
    · rfl
  have hst := masked_mem (idx := c.mav.idx) (thr := c.threshold) (ents := ents) (by omega)
  unfold Comb.addEntropy Comb.entropyPrediction
  rw [he, hd, hda]
  simp only
  rw [maskIdx_spec _ _ hml]
  simp only [bind, Except.bind]
  by_cases hall : ((c.mav.idx.zip (structuralMask c.threshold ents)).filterMap
      fun x => if x.2 then some x.1 else none).all (· == 0) = true
  · rw [if_pos hall]
    have hno : ¬ ∃ k, ∃ hk : k < c.mav.idx.length, LowAt c.threshold ents k ∧ c.mav.idx[k] ≠ 0 := by
      rintro ⟨k, hk, h1, h2⟩
      have := List.all_eq_true.1 hall c.mav.idx[k] ((hst _).2 ⟨k, hk, h1, rfl⟩)
      exact h2 (by simpa using this)
    refine ⟨inp, rfl, rfl, fun _ _ => rfl, fun k hk => ?_⟩
    rw [if_neg (fun h => hno h.2.2), add_zero]
  · rw [if_neg hall, hsize]
    have hyes : ∃ k, ∃ hk : k < c.mav.idx.length, LowAt c.threshold ents k ∧ c.mav.idx[k] ≠ 0 := by
      by_contra hno
      apply hall
      rw [List.all_eq_true]
      intro j hj
      obtain ⟨k, hk, h1, h2⟩ := (hst j).1 hj
      by_contra hj0
      exact hno ⟨k, hk, h1, by rw [h2]; simpa using hj0⟩
    by_cases hsz : 1 < data.length
    · have hconf : modelConfidence data.length c.mav.center c.mav.slope =
          1 / (1 + Real.exp (-((data.length : ℝ) - c.mav.center) * c.mav.slope)) := by
        unfold modelConfidence; rw [if_neg (by omega)]
      rw [hconf]
      have hpos : 0 < 1 / (1 + Real.exp (-((data.length : ℝ) - c.mav.center) * c.mav.slope)) := by positivity
      rw [if_pos hpos, maskIdx_spec _ _ (by simp [structuralMask, hel, hdl])]
      simp only [hm]
      rw [if_pos (by
        rw [List.all_eq_true]
        intro j hj
        obtain ⟨k, hk, _, h2⟩ := (hst j).1 hj
        simpa using hlt j (h2 ▸ List.getElem_mem hk)), masked_map, List.map_map,
        addAt_mask _ _ _ _ (by simp [hdl, hi]) hml]
      generalize hg : (npClip (-(c.clipping * m)) (c.clipping * m) ∘ fun (p : ℝ × ℝ) =>
        1 / (1 + Real.exp (-((data.length : ℝ) - c.mav.center) * c.mav.slope)) * modelRatio p) = g
      have hvl : (List.zipWith (fun (x : ℝ) (m : Bool) => if m then x else 0)
          (dist.map g) (structuralMask c.threshold ents)).length = c.mav.idx.length := by
        simp [structuralMask, hel, hdl, hi]
      obtain ⟨a1, a2, a3⟩ := addAt_gen c.mav.idx _ inp hnd hlt hvl
      have hval : ∀ k, k < c.mav.idx.length → (List.zipWith (fun (x : ℝ) (m : Bool) => if m then x else 0)
          (dist.map g) (structuralMask c.threshold ents)).getD k 0
          = if LowAt c.threshold ents k then g (dist.getD k (0, 0)) else 0 := by
        intro k hk
        have hk1 : k < dist.length := by omega
        have hk2 : k < (structuralMask c.threshold ents).length := by omega
        have hm' := mask_low c.threshold ents k
        rw [List.getD_eq_getElem?_getD, List.getElem?_eq_getElem hk2, Option.getD_some] at hm'
        rw [List.getD_eq_getElem?_getD, List.getElem?_eq_getElem (by rw [hvl]; exact hk), Option.getD_some,
          List.getElem_zipWith, List.getElem_map, hm', List.getD_eq_getElem?_getD, List.getElem?_eq_getElem hk1,
          Option.getD_some]
        by_cases hlow : LowAt c.threshold ents k <;> simp [hlow]
      refine ⟨_, rfl, a1, a2, fun k hk => ?_⟩
      rw [a3 k hk, hval k hk]
      by_cases hlow : LowAt c.threshold ents k
      · rw [if_pos hlow, if_pos ⟨hlow, hsz, hyes⟩, ← hg]
        rfl
      · rw [if_neg hlow, if_neg (fun h => hlow h.1)]
    · have hconf : modelConfidence data.length c.mav.center c.mav.slope = 0 := by
        unfold modelConfidence; rw [if_pos (by omega)]
      rw [hconf, if_neg (lt_irrefl _)]
      refine ⟨inp, rfl, rfl, fun _ _ => rfl, fun k hk => ?_⟩
      rw [if_neg (fun h => hsz h.2.1), add_zero]

/-- C68. The MAVLink prediction of the `CombinedDecoder` is that of the MAVLink decoder. -/
theorem c68_same_prediction {c : CombCfg} (hu : c.unified = false) (s : Comb σ Λ) (obs : List ℝ) (l : Nat) :
    s.mavlinkPrediction c obs l =
      ({ s with mav := (s.mav.predict c.mav obs l).1 }, (s.mav.predict c.mav obs l).2.map MavPred.llr) := by
  unfold Comb.mavlinkPrediction Mav.predict
  by_cases hl : l < s.mav.structures.length
  · have hp : pyPos s.mav.structures.length (l : Int) = some l := by
      unfold pyPos; rw [if_pos (by omega), if_pos (by omega)]; simp
    obtain ⟨x, hx⟩ : ∃ x, s.mav.structures[l]? = some x := ⟨_, List.getElem?_eq_getElem hl⟩
    have hx' : s.mav.structures.getD l none = x := by rw [List.getD_eq_getElem?_getD, hx]; rfl
    rw [hp, hx]
    simp only [hx']
    cases x with
    | none => rfl
    | some st =>
      simp only
      rcases s.mav.model.predict c.mav.stats (.bits (hardBits obs)) st with ⟨model, r⟩
      cases r with
      | error e => rfl
      | ok p =>
        simp only [CombCfg.rectify, hu, CombCfg.forcedBits, Bool.false_and, Bool.false_eq_true, if_false]
        cases fieldsWhere (fun x => 1 - c.mav.validThr < x) p.fields with
        | error e => rfl
        | ok g =>
          cases fieldsWhere (fun x => x < c.mav.invalidThr) p.fields with
          | error e => rfl
          | ok b =>
            simp only
            rcases c.mav.force model obs _ st (NR.forcedBits p.bitProb p.bitStd) (c.mav.factor model.modelSize c.mav.validFactor)
              with ⟨m2, r2⟩
            cases r2 with
            | error e => rfl
            | ok llr =>
              simp only
              cases c.mav.resegment obs llr (c.mav.factor model.modelSize c.mav.validFactor) with
              | error e => rfl
              | ok x => rfl
  · have hp : pyPos s.mav.structures.length (l : Int) = none := by
      unfold pyPos; rw [if_pos (by omega), if_neg (by omega)]
    rw [hp, List.getElem?_eq_none (by omega)]
    rfl

/-! ### The indices of the model bits -/

/-- With as many model bits as codeword bits (as `CombinedDecoder` needs), the model bits are the codeword bits in order. -/
theorem c68_whole_word_idx (infoIdx : List Bool) : modelBitsIdx infoIdx infoIdx.length = List.range infoIdx.length := by
  unfold modelBitsIdx
  rw [if_pos List.count_le_length]

/-- C68. With fewer model bits than information bits, and not all of the first `model_length` codeword bits being information
bits, the unified decoder learns the first `model_length` codeword bits but has fewer indices: once a cluster has an entropy
model, no call for it returns. -/
theorem c68_unified_mismatch {c : CombCfg} (hi : c.mav.idx.length ≠ c.modelLength) (hm : 0 < c.modelLength)
    (cls : Labeler σ) (ldpc : Ldpc Λ) (s : Comb σ Λ) {l : Nat} {ents : List ℝ} (he : s.ent.ents[l]? = some ents)
    (hel : ents.length = c.modelLength) (ch : List ℝ) (r : CombOut) (h : (s.decode c cls ldpc ch).result = .ok r) :
    r.label ≠ l := by
  intro hr
  obtain ⟨s1, inp0, inp, _, _, _, _, ha, _⟩ := c68_handed c cls ldpc s ch r h (by omega)
  rw [hr, Int.toNat_natCast] at ha
  obtain ⟨a1, a2, a3⟩ := addEntropy_some ha
  have : s.addEntropy c ch inp0 l = .error .indexError := by
    unfold Comb.addEntropy Comb.entropyPrediction
    rw [he, List.getElem?_eq_getElem a2, List.getElem?_eq_getElem a1]
    simp only
    rw [show maskIdx c.mav.idx (structuralMask c.threshold ents) = .error .indexError by
      unfold maskIdx
      have hml : (structuralMask c.threshold ents).length = ents.length := by simp [structuralMask]
      rw [if_neg (by omega), if_pos (by omega)]]
    rfl
  rw [this] at ha
  cases ha

/-- C68. In that case each cluster gets at most one returning call: if all calls return, the labels that are not negative are
all different; without clusters the second call raises. -/
theorem c68_unified_once {c : CombCfg} (hi : c.mav.idx.length ≠ c.modelLength) (hm : 0 < c.modelLength) (hw : c.window ≠ some 0)
    (cls : Labeler σ) (ldpc : Ldpc Λ) (words : List (List ℝ)) (s : Comb σ Λ) (outs : List CombOut)
    (h : (Comb.run c cls ldpc s words).2.map CombStep.result = outs.map Except.ok) :
    ((outs.map CombOut.label).filter (0 ≤ ·)).Nodup := by
  have hkeep : ∀ (s : Comb σ Λ) (ch : List ℝ) (r : CombOut), (s.decode c cls ldpc ch).result = .ok r → ∀ (l : Nat) (ents : List ℝ),
      s.ent.ents[l]? = some ents → ents.length = c.modelLength →
      ∃ ents' : List ℝ, (s.decode c cls ldpc ch).state.ent.ents[l]? = some ents' ∧ ents'.length = c.modelLength := by
    intro s ch r hr l ents he hel
    have hne := c68_unified_mismatch hi hm cls ldpc s he hel ch r hr
    rcases comb_ent_cases c cls ldpc s ch with ⟨_, h2, _⟩ | ⟨label, o, inp, lst, ho, _, d1, d2, d3, hlearn, hst, hres⟩
    · exact ⟨ents, by rw [h2]; exact he, hel⟩
    · have hll : l ≠ label := by
        rintro rfl
        rw [hres] at hr
        cases hu : (s.ent.update c.ced (c.learnedBits (if o.success then o.estimate else hardBits ch)) l).2 with
        | error e => rw [hu] at hr; cases hr
        | ok u => rw [hu] at hr; cases hr; exact hne rfl
      exact ⟨ents, by rw [hst, ((update_other c.ced s.ent _ label).2.2.2.1 l hll).2.2]; exact he, hel⟩
  have key : ∀ (words : List (List ℝ)) (s : Comb σ Λ) (outs : List CombOut),
      (Comb.run c cls ldpc s words).2.map CombStep.result = outs.map Except.ok →
      ((outs.map CombOut.label).filter (0 ≤ ·)).Nodup ∧
      ∀ l : Nat, (∃ ents : List ℝ, s.ent.ents[l]? = some ents ∧ ents.length = c.modelLength) → (l : Int) ∉ outs.map CombOut.label := by
    intro words
    induction words with
    | nil =>
      intro s outs h
      have : outs = [] := by simpa [Comb.run] using h.symm
      subst this
      simp
    | cons ch rest ih =>
      intro s outs h
      simp only [Comb.run, List.map_cons] at h
      cases outs with
      | nil => simp at h
      | cons r outs =>
        simp only [List.map_cons, List.cons.injEq] at h
        obtain ⟨i1, i2⟩ := ih _ outs h.2
        refine ⟨?_, ?_⟩
        · rw [List.map_cons, List.filter_cons]
          split
          · rename_i h0
            have h0 : 0 ≤ r.label := by simpa using h0
            rw [List.nodup_cons]
            refine ⟨?_, i1⟩
            obtain ⟨data, _, _, _, d4⟩ := c68_distribution hm hw cls ldpc s ch r h.1 h0
            have := i2 r.label.toNat ⟨_, d4, by simp⟩
            rw [Int.toNat_of_nonneg h0] at this
            exact fun hx => this (List.mem_filter.1 hx).1
          · exact i1
        · rintro l ⟨ents, he, hel⟩ hx
          rcases List.mem_cons.1 hx with hx | hx
          · exact c68_unified_mismatch hi hm cls ldpc s he hel ch r h.1 hx.symm
          · exact i2 l (hkeep s ch r h.1 l ents he hel) hx
  exact (key words s outs h).1

/-! ### Concrete cases -/

/-- Codewords of four bits; one cluster, a predefined MAVLink model. -/
noncomputable def combDemo (O : StatOps Val ℝ) (unified : Bool) (modelLength : Nat) (idx : List Nat) : CombCfg :=
  { mav := { idx, validThr := 1/10, invalidThr := 1/10, validFactor := 2, invalidFactor := 1/2, center := 2, slope := 1,
             nClusters := 1, cluster := false, learning := false, segIterations := 1, infoBytes := fun _ => [], stats := O }
    modelLength, threshold := 1/2, clipping := 5, bitFlip := 0, window := some 3, unified, flip := false }

-- A `CombinedDecoder` with three model bits raises on each of these words.
example (O : StatOps Val ℝ) (bm : BufferModel ℝ) :
    ∀ st ∈ (Comb.run (combDemo O false 3 [0, 1, 2]) clsDemo ldpcDemo (Comb.new 1 bm () ())
      [[1, 2, 3, -4], [1, -2, 3, 4]]).2, st.result = .error .incorrectBufferLength :=
  c68_always_raises (c := combDemo O false 3 [0, 1, 2]) rfl (Or.inl rfl) clsDemo ldpcDemo 4 (by simp [combDemo]) (fun _ _ => rfl)
    (Or.inl rfl) bm () () _ (by simp)

/-- The first call of a new decoder without clusters: it reaches the learning and hands over the received word. -/
theorem combDemo_first (O : StatOps Val ℝ) (u : Bool) (idx : List Nat) (k : Nat) (bm : BufferModel ℝ) (ch : List ℝ) :
    Comb.decode (combDemo O u k idx) clsDemo ldpcDemo (Comb.new 1 bm () ()) ch =
      Comb.decodeUpdate (combDemo O u k idx) ldpcDemo (Comb.new 1 bm () ()) ch 0 (hardBits ch) := by
  unfold Comb.decode
  rw [if_neg (by simp [combDemo])]
  have hpk : pickLabel clsDemo (combDemo O u k idx).mav.nClusters (combDemo O u k idx).mav.cluster
      (Comb.new (σ := Unit) (Λ := Unit) 1 bm () ()).mav.cls (Comb.new (σ := Unit) (Λ := Unit) 1 bm () ()).mav.running [] =
      ((), -1, .ok 0) := by
    simp [pickLabel, combDemo, Comb.new, Mav.new]
  simp only [hpk]
  rw [if_neg (by decide)]
  have hp : Comb.mavlinkPrediction (combDemo O u k idx) (Comb.new 1 bm () ()) ch (0 : Int).toNat =
      ((Comb.new (σ := Unit) (Λ := Unit) 1 bm () ()), .ok ch) := by
    simp [Comb.mavlinkPrediction, Comb.new, Mav.new]
  have ha : Comb.addEntropy (combDemo O u k idx) (Comb.new (σ := Unit) (Λ := Unit) 1 bm () ()) ch ch (0 : Int).toNat = .ok ch :=
    addEntropy_empty (by simp [Comb.new, Ced.new]) (by simp [Comb.new, Ced.new]) (by simp [Comb.new, Ced.new]) _ _
  have he : ({ Comb.new (σ := Unit) (Λ := Unit) 1 bm () () with
      mav := { (Comb.new (σ := Unit) (Λ := Unit) 1 bm () ()).mav with cls := (), running := -1 } } : Comb Unit Unit) =
      Comb.new 1 bm () () := rfl
  simp only [he, hp, ha]
  rfl

/-- It gives the estimate, or its first bits, to the entropy model. -/
theorem combDemo_learned (O : StatOps Val ℝ) (u : Bool) (idx : List Nat) (k : Nat) (bm : BufferModel ℝ) (ch : List ℝ) :
    (Comb.decode (combDemo O u k idx) clsDemo ldpcDemo (Comb.new 1 bm () ()) ch).learned =
      some (0, (combDemo O u k idx).learnedBits [true, true, false, true]) := by
  rw [combDemo_first]
  have hmav : Mav.decodeUpdate (combDemo O u k idx).mav ldpcDemo (Comb.new (σ := Unit) (Λ := Unit) 1 bm () ()).mav ch
      ((0 : Nat) : Int) (hardBits ch) =
      (Mav.new 1 bm () (), ⟨[true, true, false, true], [], true, 1, [], []⟩, .ok ()) := by
    simp [Mav.decodeUpdate, Comb.new, Mav.new, pyPos, Mav.learn, combDemo, ldpcDemo]
  unfold Comb.decodeUpdate
  simp only [hmav]
  rfl

/-- The unified decoder with three model bits returns from that call. -/
theorem combDemo_returns (O : StatOps Val ℝ) (bm : BufferModel ℝ) :
    ∃ r, (Comb.decode (combDemo O true 3 [0, 1, 2]) clsDemo ldpcDemo (Comb.new 1 bm () ()) [1, 2, 3, -4]).result = .ok r := by
  obtain ⟨_, data, hd, h, _⟩ := c68_fits_returns (c := combDemo O true 3 [0, 1, 2]) (n := 4) (Or.inl ⟨rfl, by simp [combDemo]⟩)
    (by simp [combDemo]) (by simp [combDemo]) clsDemo ldpcDemo (fun _ _ => rfl) (Comb.new 1 bm () ()) [1, 2, 3, -4] rfl
    (combDemo_learned O true _ 3 bm _)
  have hw := c68_window (c := combDemo O true 3 [0, 1, 2]) (n := 4) (Or.inl ⟨rfl, by simp [combDemo]⟩) (by simp [combDemo]) clsDemo ldpcDemo
    (fun _ _ => rfl) bm () () [[1, 2, 3, -4]] (by simp) 0 (by simp [combDemo])
  have hn : (combDemo O true 3 [0, 1, 2]).mav.nClusters = 1 := rfl
  simp only [Comb.run, combLearnedBy, List.filterMap_cons, List.filterMap_nil, hn, combDemo_learned, if_true, hd] at hw
  have hdata : data = [[true, true, false]] := by
    have := Option.some.inj hw
    rw [this]; rfl
  apply h
  rw [hdata]
  exact ⟨⟨_, List.mem_singleton.2 rfl, 2, by simp [combDemo], rfl⟩, ⟨_, List.mem_singleton.2 rfl, 0, by simp [combDemo], rfl⟩⟩

-- With three model bits of which two are information bits the unified decoder cannot use a model of three entropies.
example (O : StatOps Val ℝ) (s : Comb Unit Unit) (hs : s.ent.ents = [[0, 1, 0]]) (r : CombOut) (ch : List ℝ)
    (h : (s.decode (combDemo O true 3 (modelBitsIdx [false, true, true, true, true] 3)) clsDemo ldpcDemo ch).result = .ok r) :
    r.label ≠ 0 :=
  c68_unified_mismatch (c := combDemo O true 3 (modelBitsIdx [false, true, true, true, true] 3)) (l := 0) (ents := [0, 1, 0])
    (by simp only [combDemo]; decide) (by simp [combDemo]) clsDemo ldpcDemo s (by rw [hs]; rfl) rfl ch r h

-- A call in the training phase of the classifier.
example (O : StatOps Val ℝ) (bm : BufferModel ℝ) :
    ∃ r, (Comb.decode { combDemo O true 3 [0, 1, 2] with
        mav := { (combDemo O true 3 [0, 1, 2]).mav with nClusters := 2, cluster := true } }
      clsDemo ldpcDemo (Comb.new 2 bm () ()) [1, 2, 3, -4]).result = .ok r ∧ r.label = -1 := by
  unfold Comb.decode
  simp [combDemo, clsDemo, ldpcDemo, pickLabel, takeIdx, hardBits]

end NR

import Verif.Spec.MavDecoder
import Verif.Lemmas.Decoder
import Verif.Props.C30
import Verif.Props.C16_C24
/-
C57: what the MAVLink decoder learns; the MAVLink parts of C54 and C56.
-/
namespace NR
open Spec FieldModel

variable {σ Λ : Type}

/-! ### Reading a model changes only its caches -/

/-- A field model without its cached statistics. -/
def FieldModel.bare {σ μ : Type} (m : FieldModel σ μ) : String × CType × Option Nat × List σ :=
  (m.name, m.fieldType, m.windowSize, m.samples)

/-- Two models agree but for cached statistics. -/
structure SameContent {μ : Type} (a b : BufferModel μ) : Prop where
  fields : ∀ name, (a.models.lookup name).map FieldModel.bare = (b.models.lookup name).map FieldModel.bare
  window : a.windowSize = b.windowSize
  size : a.modelSize = b.modelSize

theorem SameContent.rfl' {μ : Type} (a : BufferModel μ) : SameContent a a := ⟨fun _ => rfl, rfl, rfl⟩

theorem SameContent.trans' {μ : Type} {a b d : BufferModel μ} (h1 : SameContent a b) (h2 : SameContent b d) :
    SameContent a d :=
  ⟨fun n => (h1.fields n).trans (h2.fields n), h1.window.trans h2.window, h1.size.trans h2.size⟩

theorem read_bare {σ μ : Type} (O : StatOps σ μ) (m : FieldModel σ μ) (r : Read σ) : (m.read O r).1.bare = m.bare := by
  have key : (m.refresh O).1.bare = m.bare := by
    unfold FieldModel.refresh
    split
    · rfl
    · unfold FieldModel.update
      split
      · rfl
      · split <;> rfl
  have fin : ∀ f : FieldModel σ μ → Except PyErr (Answer μ), (match m.refresh O with
      | (m', Except.error e) => (m', Except.error e)
      | (m', Except.ok ()) => (m', f m')).1.bare = m.bare := by
    intro f
    rcases h : m.refresh O with ⟨m', x⟩
    rw [h] at key
    cases x <;> exact key
  cases r with
  | modelSize => rfl
  | mean => exact fin _
  | std => exact fin _
  | bitwiseMean => exact fin _
  | pdf x => exact fin _
  | cdf x => exact fin _
  | classifyValue x => exact fin _

theorem lookup_put {μ : Type} {ms : List (String × FieldModel Val μ)} {name : String} {m m' : FieldModel Val μ}
    (hl : ms.lookup name = some m) (hb : m'.bare = m.bare) (n : String) :
    ((dictSet ms name m').lookup n).map FieldModel.bare = (ms.lookup n).map FieldModel.bare := by
  rw [lookup_dictSet]
  split
  · rename_i h; subst h; rw [hl]; simp [hb]
  · rfl

/-- What is preserved by refreshing the cache of one field model. -/
def CachePreserved {μ : Type} (O : StatOps Val μ) (P : BufferModel μ → Prop) : Prop :=
  ∀ bm name m r, bm.models.lookup name = some m → P bm → P { bm with models := dictSet bm.models name (m.read O r).1 }

theorem predictLoop_pres {μ : Type} (O : StatOps Val μ) (P : BufferModel μ → Prop) (hP : CachePreserved O P)
    (bits : List Int) (items : List (Nat × String × Val)) : ∀ (bm : BufferModel μ) (p : BufferModel.Prediction μ),
      P bm → P { bm with models := (BufferModel.predictLoop O bits bm.models p items).1 } := by
  induction items with
  | nil => intro bm p h; exact h
  | cons x items ih =>
    intro bm p h
    obtain ⟨j, name, v⟩ := x
    rw [BufferModel.predictLoop]
    cases hl : bm.models.lookup name with
    | none => exact ih bm p h
    | some m =>
      have hp := hP bm name m (.classifyValue v) hl h
      simp only
      generalize m.read O (.classifyValue v) = rd at hp ⊢
      obtain ⟨m', r⟩ := rd
      split
      · rename_i h; cases h; exact ih { bm with models := dictSet bm.models name m' } _ hp
      · rename_i h; cases h; exact hp
      · rename_i h; cases h; exact hp

theorem meanLoop_pres {μ : Type} (O : StatOps Val μ) (P : BufferModel μ → Prop) (hP : CachePreserved O P)
    (bits : List Int) (items : List (Nat × String × CType)) : ∀ (bm : BufferModel μ) (acc : List Bool),
      P bm → P { bm with models := (BufferModel.meanLoop O bits bm.models acc items).1 } := by
  induction items with
  | nil => intro bm p h; exact h
  | cons x items ih =>
    intro bm acc h
    obtain ⟨j, name, t⟩ := x
    rw [BufferModel.meanLoop]
    cases hl : bm.models.lookup name with
    | none => exact h
    | some m =>
      have hp := hP bm name m .mean hl h
      simp only
      generalize m.read O .mean = rd at hp ⊢
      obtain ⟨m', r⟩ := rd
      split
      · rename_i h
        cases h
        split
        · exact hp
        · split
          · exact hp
          · exact ih { bm with models := dictSet bm.models name m' } _ hp
      · rename_i h; cases h; exact hp
      · rename_i h; cases h; exact hp

theorem bufPredict_pres {μ : Type} (O : StatOps Val μ) (P : BufferModel μ → Prop) (hP : CachePreserved O P)
    (bm : BufferModel μ) (buf : BufArg) (st : List (Nat × Nat)) (h : P bm) : P (bm.predict O buf st).1 := by
  unfold BufferModel.predict
  split
  · exact h
  · exact predictLoop_pres O P hP _ _ _ _ h

theorem bufMean_pres {μ : Type} (O : StatOps Val μ) (P : BufferModel μ → Prop) (hP : CachePreserved O P)
    (bm : BufferModel μ) (idx : List Nat) (len : Nat) (st : List (Nat × Nat)) (h : P bm) :
    P (bm.bitwiseModelMean O idx len st).1 := by
  unfold BufferModel.bitwiseModelMean
  split
  · exact h
  · rename_i bits names types _
    have key := meanLoop_pres O P hP bits ((List.range names.length).zip (names.zip types)) bm
      (List.replicate (len * 8) false) h
    split
    · rename_i h; rw [h] at key; exact key
    · rename_i h; rw [h] at key; exact key

theorem cache_same {μ : Type} (O : StatOps Val μ) (a : BufferModel μ) : CachePreserved O (SameContent · a) :=
  fun _ _ m r hl h =>
    ⟨fun n => (lookup_put hl (read_bare O m r) n).trans (h.fields n), h.window, h.size⟩

theorem cache_bufInv {μ : Type} (O : StatOps Val μ) (w : Option Nat) (H : String → List Val) :
    CachePreserved O (fun bm => BufInv O w H bm.models) := by
  intro bm name m r hl h
  obtain ⟨t, hm⟩ := h.model name m hl
  have hne : H name ≠ [] := by
    intro h0
    rw [(h.absent name).2 h0] at hl
    cases hl
  constructor
  · intro n
    simp only [lookup_dictSet]
    by_cases hn : n = name
    · subst hn; simp [hne]
    · rw [if_neg hn]; exact h.absent n
  · intro n m' hm'
    simp only [lookup_dictSet] at hm'
    by_cases hn : n = name
    · subst hn
      rw [if_pos rfl] at hm'
      injection hm' with hm'
      subst hm'
      exact ⟨t, (inv_read O hm r).1⟩
    · rw [if_neg hn] at hm'
      exact h.model n m' hm'

/-- `model_prediction` changes nothing but caches of the field models. -/
theorem mavPredict_pres (c : MavCfg) (s : Mav σ Λ) (obs : List ℝ) (label : Int) (P : BufferModel ℝ → Prop)
    (hP : CachePreserved c.stats P) (h : P s.model) :
    ∃ model, (s.predict c obs label).1 = { s with model } ∧ P model := by
  unfold Mav.predict
  split
  · exact ⟨_, rfl, h⟩
  · split
    · exact ⟨_, rfl, h⟩
    · rename_i st _
      have h1 := bufPredict_pres c.stats P hP s.model (.bits (hardBits obs)) st h
      split
      · rename_i hp; rw [hp] at h1; exact ⟨_, rfl, h1⟩
      · rename_i model p hp
        rw [hp] at h1
        split
        · simp only
          have h2 : ∀ llr forced vf, P (c.force model obs llr st forced vf).1 := by
            intro llr forced vf
            unfold MavCfg.force
            have h3 := bufMean_pres c.stats P hP model forced (obs.length / 8) st h1
            split
            · exact h1
            · split
              · rename_i h; rw [h] at h3; exact h3
              · rename_i h
                rw [h] at h3
                split <;> exact h3
          have h4 := h2 (scaleMask (scaleMask obs (above (1 - c.validThr) p.bitProb)
            (c.factor model.modelSize c.validFactor)) (below c.invalidThr p.bitProb)
            (c.factor model.modelSize c.invalidFactor)) (forcedBits p.bitProb p.bitStd)
            (c.factor model.modelSize c.validFactor)
          split
          · rename_i h; rw [h] at h4; exact ⟨_, rfl, h4⟩
          · rename_i h
            rw [h] at h4
            split <;> exact ⟨_, rfl, h4⟩
        · exact ⟨_, rfl, h1⟩

/-! ### The loop -/

/-- What is preserved by choosing a label, by predicting and by a run of the LDPC decoder is preserved by a call. -/
theorem loop_inv (c : MavCfg) (cls : Labeler σ) (ldpc : Ldpc Λ) (ch : List ℝ) (P : Mav σ Λ → List MavEvent → Prop)
    (hsel : ∀ s ev cs run, P s ev → P { s with cls := cs, running := run } ev)
    (hpred : ∀ s ev obs label, P s ev → P (s.predict c obs label).1 ev)
    (hdec : ∀ s ev inp label, P s ev → P (s.decodeUpdate c ldpc inp label (hardBits ch)).1
      (ev ++ eventOf s.structures.length label inp (s.decodeUpdate c ldpc inp label (hardBits ch)).2.1 (hardBits ch)))
    (left : Nat) : ∀ s ev inp total last, P s ev →
      P (Mav.loop c cls ldpc ch left s ev inp total last).state (Mav.loop c cls ldpc ch left s ev inp total last).events := by
  induction left with
  | zero => intro s ev inp total last h; cases last <;> exact h
  | succ left ih =>
    intro s ev inp total last h
    rw [Mav.loop]
    split
    · exact h
    · rename_i bits _
      rcases hpk : pickLabel cls c.nClusters c.cluster s.cls s.running bits with ⟨cs, run, lab⟩
      simp only
      have h1 := hsel s ev cs run h
      split
      · exact h1
      · rename_i label
        split
        · rcases hdu : ({ s with cls := cs, running := run } : Mav σ Λ).decodeUpdate c ldpc ch label (hardBits ch)
            with ⟨s', o, r⟩
          have h2 := hdec _ ev ch label h1
          rw [hdu] at h2
          exact h2
        · have h2 := hpred _ ev inp label h1
          split
          · rename_i hp; rw [hp] at h2; exact h2
          · rename_i s2 p hp
            rw [hp] at h2
            simp only at h2
            rcases hdu : s2.decodeUpdate c ldpc p.llr label (hardBits ch) with ⟨s', o, r⟩
            have h3 := hdec _ ev p.llr label h2
            rw [hdu] at h3
            simp only at h3 ⊢
            split
            · exact h3
            · split
              · exact h3
              · exact ih _ _ _ _ _ h3

theorem decode_inv (c : MavCfg) (cls : Labeler σ) (ldpc : Ldpc Λ) (P : Mav σ Λ → List MavEvent → Prop)
    (hsel : ∀ s ev cs run, P s ev → P { s with cls := cs, running := run } ev)
    (hpred : ∀ s ev obs label, P s ev → P (s.predict c obs label).1 ev)
    (hdec : ∀ s ev inp label rx, P s ev → P (s.decodeUpdate c ldpc inp label rx).1
      (ev ++ eventOf s.structures.length label inp (s.decodeUpdate c ldpc inp label rx).2.1 rx))
    (words : List (List ℝ)) : ∀ s ev, P s ev →
      P (Mav.run c cls ldpc s words).1 (ev ++ (Mav.run c cls ldpc s words).2.flatMap MavStep.events) := by
  induction words with
  | nil => intro s ev h; simpa [Mav.run] using h
  | cons ch rest ih =>
    intro s ev h
    have h1 := loop_inv c cls ldpc ch (fun s e => P s (ev ++ e)) (fun s e cs run => hsel s (ev ++ e) cs run)
      (fun s e obs label => hpred s (ev ++ e) obs label)
      (fun s e inp label => by rw [← List.append_assoc]; exact hdec s (ev ++ e) inp label _)
      c.segIterations s [] ch 0 none (by simpa using h)
    have h2 := ih _ _ h1
    rw [List.append_assoc] at h2
    exact h2

/-! ### C57 -/

theorem pyPos_lt {n : Nat} {i : Int} {j : Nat} (h : pyPos n i = some j) : j < n := by
  unfold pyPos at h
  split at h
  · split at h
    · cases h; omega
    · cases h
  · split at h
    · cases h; omega
    · cases h

theorem messagesIn_ok (b : List Byte) : ∃ seg, segmentBuffer decode b = .ok seg ∧ messagesIn b = seg.struct := by
  obtain ⟨seg, h, _⟩ := c20_never_raises b
  exact ⟨seg, h, by rw [messagesIn, h]⟩

theorem learnedWords_append (f : List Bool → List Byte) (a b : List MavEvent) : ∀ pre,
    learnedWords f pre (a ++ b) = learnedWords f pre a ++ learnedWords f (pre ++ a) b := by
  induction a with
  | nil => intro pre; simp [learnedWords]
  | cons e a ih => intro pre; simp [learnedWords, ih]

theorem structureAfter_snoc (f : List Bool → List Byte) (evs : List MavEvent) (e : MavEvent) (j : Nat) :
    structureAfter f (evs ++ [e]) j = (structureAfter f evs j).or
      (if e.pos = j ∧ e.out.success = true then some (messagesIn (f e.out.estimate)) else none) := by
  unfold structureAfter
  rw [List.find?_append]
  cases h : evs.find? fun e => e.pos == j && e.out.success with
  | some x => simp
  | none =>
    by_cases he : e.pos = j ∧ e.out.success = true
    · simp [he.1, he.2]
    · rw [if_neg he]
      simp only [Option.none_or, Option.map_none]
      rw [List.find?_singleton, if_neg (by simpa using he)]
      rfl

open Classical in
/-- The state a learning decoder should be in after a history of runs. -/
structure MavInv (c : MavCfg) (n : Nat) (w : Option Nat) (s : Mav σ Λ) (evs : List MavEvent) : Prop where
  structures : s.structures = (List.range n).map (structureAfter c.infoBytes evs)
  window : s.model.windowSize = w
  size : s.model.modelSize = sizeAfter w ((learnedWords c.infoBytes [] evs).filter (fun a => Addable a)).length
  fields : BufInv c.stats w (fun name => ((learnedWords c.infoBytes [] evs).filter (fun a => Addable a)).flatMap (takes name))
    s.model.models

theorem nextSize_sizeAfter (w : Option Nat) (n : Nat) : BufferModel.nextSize w (sizeAfter w n) = sizeAfter w (n + 1) := by
  cases w with
  | none => rfl
  | some w =>
    show (if min n w < w then min n w + 1 else w) = min (n + 1) w
    split <;> omega

open Classical in
/-- Adding a word to the model of a history. -/
theorem inv_addBuffer (O : StatOps Val ℝ) (w : Option Nat) (m : BufferModel ℝ) (L : List (BufArg × List (Nat × Nat)))
    (a : BufArg × List (Nat × Nat)) (hw : m.windowSize = w)
    (hs : m.modelSize = sizeAfter w (L.filter (fun a => Addable a)).length)
    (hf : BufInv O w (fun name => (L.filter (fun a => Addable a)).flatMap (takes name)) m.models) :
    (m.addBuffer O a.1 a.2).1.windowSize = w ∧
    (m.addBuffer O a.1 a.2).1.modelSize = sizeAfter w ((L ++ [a]).filter (fun a => Addable a)).length ∧
    BufInv O w (fun name => ((L ++ [a]).filter (fun a => Addable a)).flatMap (takes name)) (m.addBuffer O a.1 a.2).1.models := by
  rcases c30_step O m hw hf a with ⟨ha, ms, he, hi⟩ | ⟨ha, e, he⟩
  · rw [he]
    refine ⟨hw, ?_, ?_⟩
    · simp only [List.filter_append, List.length_append, List.filter_cons, ha, decide_true, if_true, List.filter_nil,
        List.length_cons, List.length_nil]
      rw [hs]
      exact nextSize_sizeAfter w _
    · simpa [List.filter_append, ha] using hi
  · rw [he]
    refine ⟨hw, ?_, ?_⟩
    · simpa [List.filter_append, ha] using hs
    · simpa [List.filter_append, ha] using hf


theorem getD_structures {c : MavCfg} {n : Nat} {w : Option Nat} {s : Mav σ Λ} {evs : List MavEvent}
    (h : MavInv c n w s evs) {j : Nat} (hj : j < n) : s.structures.getD j none = structureAfter c.infoBytes evs j := by
  rw [h.structures]
  simp [hj]

theorem mavInv_predict {c : MavCfg} {n : Nat} {w : Option Nat} {s : Mav σ Λ} {evs : List MavEvent}
    (h : MavInv c n w s evs) (obs : List ℝ) (label : Int) : MavInv c n w (s.predict c obs label).1 evs := by
  obtain ⟨model, h1, h2, h3⟩ := mavPredict_pres c s obs label (fun bm => SameContent bm s.model ∧ BufInv c.stats w _ bm.models)
    (fun bm name m r hl hb => ⟨cache_same c.stats s.model bm name m r hl hb.1, cache_bufInv c.stats w _ bm name m r hl hb.2⟩)
    ⟨.rfl' _, h.fields⟩
  rw [h1]
  exact ⟨h.structures, h2.window.trans h.window, h2.size.trans h.size, h3⟩

theorem mavInv_learn {c : MavCfg} (hl : c.learning = true) {n : Nat} {w : Option Nat} {s : Mav σ Λ} {evs : List MavEvent}
    (h : MavInv c n w s evs) {j : Nat} (hj : j < n) (inp : List ℝ) (o : LdpcOut) (rx : List Bool) :
    MavInv c n w (s.learn c j o rx).1 (evs ++ [⟨j, inp, o, rx⟩]) := by
  have hlw : learnedWords c.infoBytes [] (evs ++ [⟨j, inp, o, rx⟩]) = learnedWords c.infoBytes [] evs ++
      (match structureAfter c.infoBytes (evs ++ [⟨j, inp, o, rx⟩]) j with
      | some st => [(.bits (if o.success then o.estimate else rx), st)]
      | none => []) := by
    rw [learnedWords_append]
    simp only [learnedWords, List.nil_append, List.append_nil]
    cases structureAfter c.infoBytes (evs ++ [⟨j, inp, o, rx⟩]) j <;> rfl
  have hstr : ∀ st, structureAfter c.infoBytes evs j = some st →
      s.structures = (List.range n).map (structureAfter c.infoBytes (evs ++ [⟨j, inp, o, rx⟩])) := by
    intro st hst
    rw [h.structures]
    apply List.map_congr_left
    intro k _
    rw [structureAfter_snoc]
    by_cases hk : j = k
    · subst hk; rw [hst]; rfl
    · simp [hk]
  have hj' := getD_structures h hj
  unfold Mav.learn
  rw [hl]
  simp only [Bool.not_true, Bool.false_eq_true, if_false]
  split
  · rename_i hok
    rw [hj']
    cases hst : structureAfter c.infoBytes evs j with
    | some st =>
      simp only
      have hn : structureAfter c.infoBytes (evs ++ [⟨j, inp, o, rx⟩]) j = some st := by rw [structureAfter_snoc, hst]; rfl
      rw [hn] at hlw
      simp only [hok, if_true] at hlw
      obtain ⟨a1, a2, a3⟩ := inv_addBuffer c.stats w s.model _ (.bits o.estimate, st) h.window h.size h.fields
      refine ⟨hstr st hst, a1, ?_, ?_⟩
      · rw [hlw]; exact a2
      · simp only [hlw]; exact a3
    | none =>
      obtain ⟨seg, hs1, hs2⟩ := messagesIn_ok (c.infoBytes o.estimate)
      simp only [hs1]
      have hn : structureAfter c.infoBytes (evs ++ [⟨j, inp, o, rx⟩]) j = some seg.struct := by
        rw [structureAfter_snoc, hst]
        simp [hok, hs2]
      rw [hn] at hlw
      simp only [hok, if_true] at hlw
      obtain ⟨a1, a2, a3⟩ := inv_addBuffer c.stats w s.model _ (.bits o.estimate, seg.struct) h.window h.size h.fields
      refine ⟨?_, a1, ?_, ?_⟩
      · simp only [h.structures]
        apply List.ext_getElem?
        intro k
        rw [List.getElem?_set]
        by_cases hk : j = k
        · subst hk
          rw [if_pos rfl, if_pos (by simpa using hj)]
          simp [hj, hn]
        · rw [if_neg hk]
          by_cases hkn : k < n
          · simp [hkn, structureAfter_snoc, hk]
          · rw [List.getElem?_eq_none (by simpa using hkn), List.getElem?_eq_none (by simpa using hkn)]
      · rw [hlw]; exact a2
      · simp only [hlw]; exact a3
  · rename_i hok
    rw [hj']
    cases hst : structureAfter c.infoBytes evs j with
    | some st =>
      simp only
      have hn : structureAfter c.infoBytes (evs ++ [⟨j, inp, o, rx⟩]) j = some st := by rw [structureAfter_snoc, hst]; rfl
      rw [hn] at hlw
      simp only [hok, Bool.false_eq_true, if_false] at hlw
      obtain ⟨a1, a2, a3⟩ := inv_addBuffer c.stats w s.model _ (.bits rx, st) h.window h.size h.fields
      refine ⟨hstr st hst, a1, ?_, ?_⟩
      · rw [hlw]; exact a2
      · simp only [hlw]; exact a3
    | none =>
      have hn : structureAfter c.infoBytes (evs ++ [⟨j, inp, o, rx⟩]) j = none := by
        rw [structureAfter_snoc, hst]; simp [hok]
      rw [hn] at hlw
      simp only [List.append_nil] at hlw
      refine ⟨?_, h.window, ?_, ?_⟩
      · rw [h.structures]
        apply List.map_congr_left
        intro k _
        rw [structureAfter_snoc]
        simp [hok]
      · rw [hlw]; exact h.size
      · simp only [hlw]; exact h.fields

theorem mavInv_ldpc {c : MavCfg} {n : Nat} {w : Option Nat} {s : Mav σ Λ} {evs : List MavEvent} (h : MavInv c n w s evs)
    (l : Λ) : MavInv c n w { s with ldpc := l } evs := ⟨h.structures, h.window, h.size, h.fields⟩

theorem mavInv_decodeUpdate {c : MavCfg} (hl : c.learning = true) {n : Nat} {w : Option Nat} {s : Mav σ Λ}
    {evs : List MavEvent} (h : MavInv c n w s evs) (ldpc : Ldpc Λ) (inp : List ℝ) (label : Int) (rx : List Bool) :
    MavInv c n w (s.decodeUpdate c ldpc inp label rx).1
      (evs ++ eventOf s.structures.length label inp (s.decodeUpdate c ldpc inp label rx).2.1 rx) := by
  unfold Mav.decodeUpdate eventOf
  rcases hld : ldpc s.ldpc (.llr inp) with ⟨l', o⟩
  simp only
  have hlen : s.structures.length = n := by rw [h.structures]; simp
  cases hp : pyPos s.structures.length label with
  | none => simpa using mavInv_ldpc h l'
  | some j =>
    simp only
    have hj := pyPos_lt hp
    rw [hlen] at hj
    exact mavInv_learn hl (mavInv_ldpc h l') hj inp o rx

theorem mavInv_new (c : MavCfg) (n : Nat) (w : Option Nat) (cls : σ) (ldpc : Λ) :
    MavInv c n w (Mav.new n (BufferModel.new w) cls ldpc) [] := by
  refine ⟨?_, rfl, ?_, ?_⟩
  · apply List.ext_getElem?
    intro k
    by_cases hk : k < n
    · simp [Mav.new, hk, structureAfter]
    · rw [List.getElem?_eq_none (by simp [Mav.new]; omega), List.getElem?_eq_none (by simp; omega)]
  · cases w <;> simp [Mav.new, BufferModel.new, learnedWords, sizeAfter]
  · simpa [Mav.new, learnedWords, BufferModel.new] using bufInv_new c.stats w

theorem mavInv_run {c : MavCfg} (hl : c.learning = true) (cls : Labeler σ) (ldpc : Ldpc Λ) (n : Nat) (w : Option Nat)
    (words : List (List ℝ)) (s : Mav σ Λ) (evs : List MavEvent) (h : MavInv c n w s evs) :
    MavInv c n w (Mav.run c cls ldpc s words).1 (evs ++ (Mav.run c cls ldpc s words).2.flatMap MavStep.events) :=
  decode_inv c cls ldpc (fun s e => MavInv c n w s e) (fun _ _ _ _ h => ⟨h.structures, h.window, h.size, h.fields⟩)
    (fun _ _ obs label h => mavInv_predict h obs label)
    (fun _ _ inp label rx h => mavInv_decodeUpdate hl h ldpc inp label rx) words s evs h

open Classical in
/-- C57. A learning decoder after any sequence of calls (some of which may raise): the structure of each cluster is what is
found in the first word of that cluster that was decoded (none before); the field models hold the windows of the values
taken in the words learned. The events list the runs of the LDPC decoder; `c57_returned` relates them to what the calls
return. -/
theorem c57_learned {c : MavCfg} (hl : c.learning = true) (cls : Labeler σ) (ldpc : Ldpc Λ) (w : Option Nat) (cs : σ)
    (l : Λ) (words : List (List ℝ)) (s : Mav σ Λ) (evs : List MavEvent) (L : List (BufArg × List (Nat × Nat)))
    (hs : s = (Mav.run c cls ldpc (Mav.new c.nClusters (BufferModel.new w) cs l) words).1)
    (hev : evs = (Mav.run c cls ldpc (Mav.new c.nClusters (BufferModel.new w) cs l) words).2.flatMap MavStep.events)
    (hL : L = (learnedWords c.infoBytes [] evs).filter (fun a => Addable a)) :
    s.structures = (List.range c.nClusters).map (structureAfter c.infoBytes evs) ∧
    s.model.modelSize = sizeAfter w L.length ∧
    ∀ name, ((s.model.models.lookup name).map FieldModel.samples).getD [] = windowed w (L.flatMap (takes name)) := by
  have h := mavInv_run hl cls ldpc c.nClusters w words _ [] (mavInv_new c c.nClusters w cs l)
  rw [List.nil_append, ← hs, ← hev] at h
  refine ⟨h.structures, by rw [hL]; exact h.size, fun name => ?_⟩
  have hf := h.fields
  rw [← hL] at hf
  cases hn : s.model.models.lookup name with
  | none =>
    have := (hf.absent name).1 hn
    rw [this]
    exact (windowed_eq_nil.2 rfl).symm
  | some m =>
    obtain ⟨t, hm⟩ := hf.model name m hn
    simpa using hm.samples

/-- The structure of a cluster stays once it is set. -/
theorem structure_kept (c : MavCfg) (s : Mav σ Λ) (j k : Nat) (o : LdpcOut) (rx : List Bool) (st : List (Nat × Nat))
    (h : s.structures[k]? = some (some st)) : (s.learn c j o rx).1.structures[k]? = some (some st) := by
  unfold Mav.learn
  split
  · exact h
  · split
    · split
      · exact h
      · rename_i hn
        split
        · exact h
        · simp only
          rw [List.getElem?_set]
          split
          · rename_i hjk
            subst hjk
            rw [List.getD_eq_getElem?_getD, h] at hn
            cases hn
          · exact h
    · split <;> exact h

theorem learn_frozen (c : MavCfg) (hl : c.learning = false) (s : Mav σ Λ) (j : Nat) (o : LdpcOut) (rx : List Bool) :
    s.learn c j o rx = (s, .ok ()) := by
  unfold Mav.learn
  simp [hl]

/-- C57. Once a cluster has a structure - found or given with `set_buffer_structures` - no sequence of calls changes it. -/
theorem c57_fixed (c : MavCfg) (cls : Labeler σ) (ldpc : Ldpc Λ) (s : Mav σ Λ) (words : List (List ℝ)) (k : Nat)
    (st : List (Nat × Nat)) (h : s.structures[k]? = some (some st)) :
    (Mav.run c cls ldpc s words).1.structures[k]? = some (some st) := by
  refine decode_inv c cls ldpc (fun s _ => s.structures[k]? = some (some st)) (fun _ _ _ _ h => h) ?_ ?_ words s [] h
  · intro s ev obs label h
    obtain ⟨model, h1, -⟩ := mavPredict_pres c s obs label (fun _ => True) (fun _ _ _ _ _ _ => trivial) trivial
    rw [h1]; exact h
  · intro s ev inp label rx h
    unfold Mav.decodeUpdate
    rcases ldpc s.ldpc (.llr inp) with ⟨l', o⟩
    simp only
    split
    · exact h
    · exact structure_kept c _ _ k o rx st h

/-- C57. Structures given by the caller: their number must be the number of clusters, else the call raises and changes nothing; they
replace the ones known, change nothing else, and stay for good. -/
theorem c57_set_structures (c : MavCfg) (s : Mav σ Λ) (structs : List (Option (List (Nat × Nat)))) :
    (structs.length ≠ c.nClusters → s.setStructures c structs = (s, .error .valueError)) ∧
    (structs.length = c.nClusters → ∃ t, s.setStructures c structs = (t, .ok ()) ∧ t.structures = structs ∧
      t.model = s.model ∧ t.running = s.running ∧ t.cls = s.cls ∧ t.ldpc = s.ldpc ∧
      ∀ (cls : Labeler σ) (ldpc : Ldpc Λ) (words : List (List ℝ)) (k : Nat) (st : List (Nat × Nat)),
        structs[k]? = some (some st) → (Mav.run c cls ldpc t words).1.structures[k]? = some (some st)) := by
  constructor
  · intro h
    unfold Mav.setStructures
    rw [if_pos h]
  · intro h
    refine ⟨{ s with structures := structs }, ?_, rfl, rfl, rfl, rfl, rfl, fun cls ldpc words k st hk => ?_⟩
    · unfold Mav.setStructures
      rw [if_neg (by omega)]
    · exact c57_fixed c cls ldpc _ words k st hk

/-- C57. With a predefined model nothing is learned: no sequence of calls changes a structure, the size of the model, or the
type, window or samples of a field. -/
theorem c57_frozen (c : MavCfg) (hl : c.learning = false) (cls : Labeler σ) (ldpc : Ldpc Λ) (s : Mav σ Λ)
    (words : List (List ℝ)) :
    (Mav.run c cls ldpc s words).1.structures = s.structures ∧
    (Mav.run c cls ldpc s words).1.model.modelSize = s.model.modelSize ∧
    ∀ name, ((Mav.run c cls ldpc s words).1.model.models.lookup name).map
        (fun m => (m.fieldType, m.windowSize, m.samples)) =
      (s.model.models.lookup name).map (fun m => (m.fieldType, m.windowSize, m.samples)) := by
  have key : (Mav.run c cls ldpc s words).1.structures = s.structures ∧
      SameContent (Mav.run c cls ldpc s words).1.model s.model := by
    refine decode_inv c cls ldpc (fun s' _ => s'.structures = s.structures ∧ SameContent s'.model s.model)
      (fun _ _ _ _ h => h) ?_ ?_ words s [] ⟨rfl, .rfl' _⟩
    · intro s' ev obs label h
      obtain ⟨model, h1, h2⟩ := mavPredict_pres c s' obs label _ (cache_same c.stats s.model) h.2
      rw [h1]; exact ⟨h.1, h2⟩
    · intro s' ev inp label rx h
      unfold Mav.decodeUpdate
      rcases ldpc s'.ldpc (.llr inp) with ⟨l', o⟩
      simp only
      split
      · exact h
      · rw [learn_frozen c hl]; exact h
  refine ⟨key.1, key.2.size, fun name => ?_⟩
  have := congrArg (Option.map fun (x : String × CType × Option Nat × List Val) => x.2) (key.2.fields name)
  simpa [Option.map_map, Function.comp_def, FieldModel.bare] using this

theorem eventOf_some {n : Nat} {label : Int} {j : Nat} (h : pyPos n label = some j) (inp : List ℝ) (o : LdpcOut)
    (rx : List Bool) : eventOf n label inp o rx = [⟨j, inp, o, rx⟩] := by rw [eventOf, h]

theorem decodeUpdate_structures_length (c : MavCfg) (ldpc : Ldpc Λ) (s : Mav σ Λ) (inp : List ℝ) (label : Int)
    (rx : List Bool) : (s.decodeUpdate c ldpc inp label rx).1.structures.length = s.structures.length := by
  unfold Mav.decodeUpdate
  rcases ldpc s.ldpc (.llr inp) with ⟨l', o⟩
  simp only
  split
  · rfl
  · simp only [Mav.learn]
    split
    · rfl
    · split
      · split
        · rfl
        · split <;> simp
      · split <;> rfl

theorem predict_ok_pos {c : MavCfg} {s s' : Mav σ Λ} {obs : List ℝ} {label : Int} {p : MavPred}
    (h : s.predict c obs label = (s', .ok p)) : ∃ j, pyPos s.structures.length label = some j := by
  unfold Mav.predict at h
  cases hp : pyPos s.structures.length label with
  | none => rw [hp] at h; cases h
  | some j => exact ⟨j, rfl⟩

/-- A run of the LDPC decoder and what a call returned agree. -/
def Matches (n : Nat) (ch : List ℝ) (e : MavEvent) (out : MavOut) : Prop :=
  e.out.estimate = out.estimate ∧ e.out.llr = out.llr ∧ e.out.success = out.success ∧ e.rx = hardBits ch ∧
  (e.pos : Int) = if out.label < 0 then n + out.label else out.label

theorem pyPos_eq {n : Nat} {i : Int} {j : Nat} (h : pyPos n i = some j) : (j : Int) = if i < 0 then n + i else i := by
  unfold pyPos at h
  split at h
  · split at h
    · cases h; rw [if_neg (by omega)]; omega
    · cases h
  · split at h
    · cases h; rw [if_pos (by omega)]; omega
    · cases h

theorem loop_returned (c : MavCfg) (cls : Labeler σ) (ldpc : Ldpc Λ) (ch : List ℝ) (n : Nat) (out : MavOut)
    (hl : -(n : Int) ≤ out.label) (left : Nat) :
    ∀ (s : Mav σ Λ) (ev : List MavEvent) (inp : List ℝ) (total : Nat) (last : Option MavOut), s.structures.length = n →
      (∀ e ∈ ev, e.out.success = false) → total = (ev.map fun e => e.out.iterations).sum →
      (∀ o, last = some o → ∃ evs e, ev = evs ++ [e] ∧ Matches n ch e o ∧ o.iterations = total) →
      (Mav.loop c cls ldpc ch left s ev inp total last).result = .ok out →
      ∃ evs e, (Mav.loop c cls ldpc ch left s ev inp total last).events = evs ++ [e] ∧
        (∀ e' ∈ evs, e'.out.success = false) ∧ Matches n ch e out ∧
        (0 ≤ out.label → ((evs ++ [e]).map fun e => e.out.iterations).sum = out.iterations) := by
  induction left with
  | zero =>
    intro s ev inp total last hn hev htot hlast h
    cases last with
    | none => cases h
    | some o =>
      cases h
      obtain ⟨evs, e, h1, h2, h3⟩ := hlast out rfl
      refine ⟨evs, e, h1, fun e' he' => hev e' (by rw [h1]; simp [he']), h2, fun _ => ?_⟩
      rw [h3, htot, h1]
  | succ left ih =>
    intro s ev inp total last hn hev htot hlast h
    rw [Mav.loop] at h ⊢
    split at h
    · cases h
    · rename_i bits hbits
      simp only
      rcases hpk : pickLabel cls c.nClusters c.cluster s.cls s.running bits with ⟨cs, run, lab⟩
      simp only [hpk] at h ⊢
      cases lab with
      | error e => cases h
      | ok label =>
        simp only at h ⊢
        split at h
        · rename_i hneg
          rw [if_pos hneg]
          rcases hdu : ({ s with cls := cs, running := run } : Mav σ Λ).decodeUpdate c ldpc ch label (hardBits ch)
            with ⟨s', o, r⟩
          simp only [hdu] at h ⊢
          cases r with
          | error e => cases h
          | ok u =>
            cases h
            simp only at hl
            obtain ⟨j, hj⟩ : ∃ j, pyPos n label = some j := by
              unfold pyPos
              rw [if_neg (by omega), if_pos (by omega)]
              exact ⟨_, rfl⟩
            rw [eventOf_some (by rw [hn]; exact hj)]
            refine ⟨ev, _, rfl, hev, ⟨rfl, rfl, rfl, rfl, pyPos_eq hj⟩, ?_⟩
            intro h0
            simp only at h0
            omega
        · rename_i hneg
          rw [if_neg hneg]
          cases hpr : ({ s with cls := cs, running := run } : Mav σ Λ).predict c inp label with
          | mk s2 pr =>
            rw [hpr] at h
            cases pr with
            | error e => cases h
            | ok p =>
              simp only at h ⊢
              obtain ⟨j, hj⟩ := predict_ok_pos hpr
              simp only [hn] at hj
              have hn2 : s2.structures.length = n := by
                obtain ⟨model, h1, -⟩ := mavPredict_pres c ({ s with cls := cs, running := run } : Mav σ Λ) inp label
                  (fun _ => True) (fun _ _ _ _ _ _ => trivial) trivial
                rw [hpr] at h1
                simp only at h1
                rw [h1]; exact hn
              have hlen := decodeUpdate_structures_length c ldpc s2 p.llr label (hardBits ch)
              rcases hdu : s2.decodeUpdate c ldpc p.llr label (hardBits ch) with ⟨s', o, r⟩
              rw [hdu] at hlen
              simp only [hdu] at h hlen ⊢
              cases r with
              | error e => cases h
              | ok u =>
                simp only at h ⊢
                rw [eventOf_some (by rw [hn2]; exact hj)] at h ⊢
                split at h
                · rename_i hok
                  rw [if_pos hok]
                  cases h
                  refine ⟨ev, _, rfl, hev, ⟨rfl, rfl, rfl, rfl, pyPos_eq hj⟩, fun _ => ?_⟩
                  simp [htot]
                · rename_i hok
                  rw [if_neg hok]
                  refine ih s' _ _ _ _ (hlen.trans hn2) ?_ ?_ ?_ h
                  · intro e he
                    rcases List.mem_append.1 he with he | he
                    · exact hev e he
                    · rw [List.mem_singleton.1 he]; simpa using hok
                  · simp [htot]
                  · intro o' ho'
                    cases ho'
                    exact ⟨ev, _, rfl, ⟨rfl, rfl, rfl, rfl, pyPos_eq hj⟩, rfl⟩

/-- C57. What a call returns is what its last run of the LDPC decoder returned, and no earlier run succeeded: the cluster of
that run is the one of the returned label (a negative label counting from the last cluster), its received bits are the hard
decisions of the given word, and the iterations returned are those of all runs of the call. -/
theorem c57_returned (c : MavCfg) (cls : Labeler σ) (ldpc : Ldpc Λ) (s : Mav σ Λ) (ch : List ℝ) (out : MavOut)
    (hl : -(s.structures.length : Int) ≤ out.label)
    (h : (s.decode c cls ldpc ch).result = .ok out) :
    ∃ evs e, (s.decode c cls ldpc ch).events = evs ++ [e] ∧ (∀ e' ∈ evs, e'.out.success = false) ∧
      Matches s.structures.length ch e out ∧
      (0 ≤ out.label → ((evs ++ [e]).map fun e => e.out.iterations).sum = out.iterations) :=
  loop_returned c cls ldpc ch s.structures.length out hl c.segIterations s [] ch 0 none rfl (by simp) rfl (by simp) h

/-- C57. As long as a cluster has no structure the word goes to the LDPC decoder as it is. -/
theorem c57_no_structure (c : MavCfg) (s : Mav σ Λ) (obs : List ℝ) (label : Nat)
    (h : s.structures[label]? = some none) :
    s.predict c obs label = (s, .ok ⟨obs, [], [], 0, none, []⟩) := by
  have hlt := (List.getElem?_eq_some_iff.1 h).1
  have hp : pyPos s.structures.length (label : Int) = some label := by
    unfold pyPos
    rw [if_pos (by omega), if_pos (by omega)]
    simp
  unfold Mav.predict
  rw [hp]
  simp only [List.getD_eq_getElem?_getD, h, Option.getD_some]

/-! ### C54, C56 -/

/-- C54. While the classifier is training (negative label) the MAVLink decoder hands the channel word to the LDPC decoder
unchanged and returns what that returns. -/
theorem c54_mavlink_passthrough (c : MavCfg) (cls : Labeler σ) (ldpc : Ldpc Λ) (s : Mav σ Λ) (ch : List ℝ) (out : MavOut)
    (hit : 0 < c.segIterations) (cs : σ) (bits : List Bool) (label : Int) (hneg : label < 0)
    (hn : -(s.structures.length : Int) ≤ label)
    (hc : 1 < c.nClusters ∧ c.cluster = true) (hb : takeIdx (hardBits ch) c.idx = .ok bits)
    (hcls : cls s.cls bits = (cs, .ok label)) (h : (s.decode c cls ldpc ch).result = .ok out) :
    ∃ j, (s.decode c cls ldpc ch).events = [⟨j, ch, (ldpc s.ldpc (.llr ch)).2, hardBits ch⟩] ∧
      out.estimate = (ldpc s.ldpc (.llr ch)).2.estimate ∧ out.success = (ldpc s.ldpc (.llr ch)).2.success ∧
      out.llr = (ldpc s.ldpc (.llr ch)).2.llr ∧ out.iterations = (ldpc s.ldpc (.llr ch)).2.iterations ∧
      out.label = label := by
  obtain ⟨left, hleft⟩ := Nat.exists_eq_succ_of_ne_zero (Nat.pos_iff_ne_zero.1 hit)
  unfold Mav.decode at h ⊢
  rw [hleft, Mav.loop] at h ⊢
  rw [if_pos hc, hb] at h ⊢
  simp only [pickLabel, hc.1, hc.2, if_true, hcls, if_pos hneg] at h ⊢
  rcases hld : ldpc s.ldpc (.llr ch) with ⟨l', o⟩
  have hdu : ({ s with cls := cs, running := s.running } : Mav σ Λ).decodeUpdate c ldpc ch label (hardBits ch) =
      (let r := match pyPos s.structures.length label with
        | none => (({ s with cls := cs, ldpc := l' } : Mav σ Λ), if c.learning then Except.error PyErr.indexError else .ok ())
        | some j => ({ s with cls := cs, ldpc := l' } : Mav σ Λ).learn c j o (hardBits ch)
      (r.1, o, r.2)) := by
    unfold Mav.decodeUpdate
    simp only [hld]
    cases pyPos s.structures.length label <;> rfl
  rw [hdu] at h ⊢
  obtain ⟨j, hj⟩ : ∃ j, pyPos s.structures.length label = some j := by
    unfold pyPos
    rw [if_neg (by omega), if_pos (by omega)]
    exact ⟨_, rfl⟩
  simp only [hj] at h ⊢
  rw [eventOf_some hj]
  cases hr : (({ s with cls := cs, ldpc := l' } : Mav σ Λ).learn c j o (hardBits ch)).2 with
  | error e => rw [hr] at h; cases h
  | ok u =>
    rw [hr] at h
    cases h
    exact ⟨j, rfl, rfl, rfl, rfl, rfl, rfl⟩

/-- C54. The claim that nothing is learned then fails for the MAVLink decoder: label -1 stands for the last cluster, and a
successful decoding sets the structure of that cluster to what is found in the word. -/
theorem c54_mavlink_false (c : MavCfg) (cls : Labeler σ) (ldpc : Ldpc Λ) (s : Mav σ Λ) (ch : List ℝ)
    (hit : 0 < c.segIterations) (hlearn : c.learning = true) (hc : 1 < c.nClusters ∧ c.cluster = true)
    (hs : s.structures.length = c.nClusters) (hnone : s.structures[c.nClusters - 1]? = some none)
    (cs : σ) (bits : List Bool) (hb : takeIdx (hardBits ch) c.idx = .ok bits)
    (hcls : cls s.cls bits = (cs, .ok (-1))) (hok : (ldpc s.ldpc (.llr ch)).2.success = true) :
    (s.decode c cls ldpc ch).state.structures[c.nClusters - 1]? =
      some (some (messagesIn (c.infoBytes (ldpc s.ldpc (.llr ch)).2.estimate))) ∧
    (s.decode c cls ldpc ch).state.structures ≠ s.structures := by
  have key : (s.decode c cls ldpc ch).state.structures[c.nClusters - 1]? =
      some (some (messagesIn (c.infoBytes (ldpc s.ldpc (.llr ch)).2.estimate))) := by
    obtain ⟨left, hleft⟩ := Nat.exists_eq_succ_of_ne_zero (Nat.pos_iff_ne_zero.1 hit)
    unfold Mav.decode
    rw [hleft, Mav.loop]
    rw [if_pos hc, hb]
    simp only [pickLabel, hc.1, hc.2, if_true, hcls]
    rw [if_pos (by omega)]
    rcases hld : ldpc s.ldpc (.llr ch) with ⟨l', o⟩
    rw [hld] at hok
    have hp : pyPos s.structures.length (-1) = some (c.nClusters - 1) := by
      unfold pyPos
      rw [if_neg (by omega), if_pos (by omega)]
      congr 1
      omega
    obtain ⟨seg, hseg, hmsg⟩ := messagesIn_ok (c.infoBytes o.estimate)
    have hn : s.structures.getD (c.nClusters - 1) none = none := by
      rw [List.getD_eq_getElem?_getD, hnone]; rfl
    simp only at hok
    simp only [Mav.decodeUpdate, hld, hp, Mav.learn, hlearn, Bool.not_true, Bool.false_eq_true, if_false, hok, if_true, hn, hseg]
    rw [List.getElem?_set_self (by omega), hmsg]
  refine ⟨key, fun h => ?_⟩
  rw [h, hnone] at key
  cases key

theorem decodeUpdate_running (c : MavCfg) (ldpc : Ldpc Λ) (s : Mav σ Λ) (inp : List ℝ) (label : Int)
    (rx : List Bool) : (s.decodeUpdate c ldpc inp label rx).1.running = s.running := by
  unfold Mav.decodeUpdate
  rcases ldpc s.ldpc (.llr inp) with ⟨l', o⟩
  simp only
  split
  · rfl
  · simp only [Mav.learn]
    split
    · rfl
    · split
      · split
        · rfl
        · split <;> rfl
      · split <;> rfl

/-- C56 for the MAVLink decoder: with one segmentation iteration, clustering off and several clusters, the i-th call
(counting from 0, including calls that raised) carries label i mod n; with one cluster the label is 0. -/
theorem c56_mavlink_round_robin {c : MavCfg} (hit : c.segIterations = 1) (cls : Labeler σ) (ldpc : Ldpc Λ) (s0 : Mav σ Λ)
    (hs : s0.running = -1) (words : List (List ℝ)) (i : Nat) (r : MavOut)
    (h : ((Mav.run c cls ldpc s0 words).2.map MavStep.result)[i]? = some (.ok r)) :
    (1 < c.nClusters → c.cluster = false → r.label = (i % c.nClusters : Nat)) ∧ (c.nClusters ≤ 1 → r.label = 0) := by
  have gen : ∀ (s : Mav σ Λ) (w : List ℝ) (run lab : Int), ¬ (1 < c.nClusters ∧ c.cluster = true) →
      pickLabel cls c.nClusters c.cluster s.cls s.running [] = (s.cls, run, .ok lab) → 0 ≤ lab →
      (s.decode c cls ldpc w).state.running = run ∧ ∀ r, (s.decode c cls ldpc w).result = .ok r → r.label = lab := by
    intro s w run lab hnc hpk hlab
    unfold Mav.decode
    rw [hit, Mav.loop, if_neg hnc]
    simp only [hpk]
    rw [if_neg (not_lt.2 hlab)]
    have hrun : (({ s with cls := s.cls, running := run } : Mav σ Λ).predict c w lab).1.running = run := by
      obtain ⟨model, h1, -⟩ := mavPredict_pres c ({ s with cls := s.cls, running := run } : Mav σ Λ) w lab
        (fun _ => True) (fun _ _ _ _ _ _ => trivial) trivial
      rw [h1]
    cases hpr : ({ s with cls := s.cls, running := run } : Mav σ Λ).predict c w lab with
    | mk s2 pr =>
      rw [hpr] at hrun
      cases pr with
      | error e => exact ⟨hrun, fun r h => (by cases h)⟩
      | ok p =>
        have hr2 := decodeUpdate_running c ldpc s2 p.llr lab (hardBits w)
        rcases hdu : s2.decodeUpdate c ldpc p.llr lab (hardBits w) with ⟨s', o, r⟩
        rw [hdu] at hr2
        simp only at hr2 hrun
        simp only [hdu]
        cases r with
        | error e => exact ⟨hr2.trans hrun, fun r h => (by cases h)⟩
        | ok u =>
          simp only
          split
          · refine ⟨hr2.trans hrun, fun r h => ?_⟩
            cases h; rfl
          · rw [Mav.loop]
            refine ⟨hr2.trans hrun, fun r h => ?_⟩
            cases h; rfl
  have step : ∀ (s : Mav σ Λ) (w : List ℝ),
      (1 < c.nClusters → c.cluster = false →
        (s.decode c cls ldpc w).state.running = (s.running + 1) % c.nClusters ∧
        ∀ r, (s.decode c cls ldpc w).result = .ok r → r.label = (s.running + 1) % c.nClusters) ∧
      (c.nClusters ≤ 1 → ∀ r, (s.decode c cls ldpc w).result = .ok r → r.label = 0) := by
    intro s w
    refine ⟨fun hn hc => ?_, fun hn => ?_⟩
    · exact gen s w _ _ (by simp [hc]) (by rw [pickLabel, if_pos hn, hc]; rfl) (Int.emod_nonneg _ (by omega))
    · exact (gen s w s.running 0 (by omega) (by rw [pickLabel, if_neg (by omega)]) le_rfl).2
  have key : ∀ (words : List (List ℝ)) (s : Mav σ Λ) (k i : Nat) (r : MavOut),
      ((Mav.run c cls ldpc s words).2.map MavStep.result)[i]? = some (.ok r) →
      (1 < c.nClusters → c.cluster = false → (s.running + 1) % c.nClusters = ((k % c.nClusters : Nat) : Int) →
        r.label = (((k + i) % c.nClusters : Nat) : Int)) ∧ (c.nClusters ≤ 1 → r.label = 0) := by
    intro words
    induction words with
    | nil => intro s k i r h; simp [Mav.run] at h
    | cons w rest ih =>
      intro s k i r h
      obtain ⟨s1, s2⟩ := step s w
      simp only [Mav.run, List.map_cons] at h
      cases i with
      | zero =>
        simp only [List.getElem?_cons_zero, Option.some.injEq] at h
        refine ⟨fun hn hc hk => ?_, fun hn => s2 hn r h⟩
        rw [(s1 hn hc).2 r h, hk]; rfl
      | succ i =>
        simp only [List.getElem?_cons_succ] at h
        obtain ⟨i1, i2⟩ := ih (s.decode c cls ldpc w).state (k + 1) i r h
        refine ⟨fun hn hc hk => ?_, i2⟩
        rw [i1 hn hc ?_]
        · congr 2; omega
        · rw [(s1 hn hc).1, hk]
          push_cast
          rw [Int.emod_add_emod]
  obtain ⟨k1, k2⟩ := key words s0 0 i r h
  refine ⟨fun hn hc => ?_, k2⟩
  rw [k1 hn hc (by rw [hs]; simp), Nat.zero_add]

/-- C57. Without segmentation iterations every call raises (the variables it returns are never assigned). -/
theorem c57_no_iterations (c : MavCfg) (hit : c.segIterations = 0) (cls : Labeler σ) (ldpc : Ldpc Λ) (s : Mav σ Λ)
    (ch : List ℝ) : s.decode c cls ldpc ch = ⟨s, [], .error .unboundLocalError⟩ := by
  unfold Mav.decode
  rw [hit, Mav.loop]

/-- The parameters of the examples: two clusters, learning, and information bytes that hold two heartbeats. -/
noncomputable def exMav (O : StatOps Val ℝ) (iterations : Nat) (cluster : Bool) : MavCfg :=
  ⟨[0], 1/10, 1/10, 2, 1/2, 10, 1, 2, cluster, true, iterations, fun _ => sampleBuffer, O⟩

/-- The word of the examples: the bits of two heartbeats and some junk. -/
def exWord : List Bool := sampleBuffer.flatMap fun b => uintBits 8 b.toNat

/-- An LDPC decoder of the examples, which always or never succeeds. -/
def exLdpc (ok : Bool) : Ldpc Unit := fun _ _ => ((), ⟨exWord, [1, 1], ok, 3, [], []⟩)

theorem exMessages : messagesIn sampleBuffer = [(2, 0), (20, 0)] := by decide +kernel

/-- A first call, one iteration: the LDPC decoder runs for cluster 0 on the word as given. -/
theorem exMav_first (O : StatOps Val ℝ) (ok : Bool) (bm : BufferModel ℝ) :
    ((Mav.new 2 bm () ()).decode (exMav O 1 false) (fun _ _ => ((), .ok 0)) (exLdpc ok) [1, -1]).events =
      [⟨0, [1, -1], ⟨exWord, [1, 1], ok, 3, [], []⟩, hardBits [1, -1]⟩] := by
  unfold Mav.decode
  have hpk : pickLabel (fun (_ : Unit) _ => ((), .ok 0)) (exMav O 1 false).nClusters (exMav O 1 false).cluster () (-1) [] =
      ((), 0, .ok ((0 : Nat) : Int)) := by simp [pickLabel, exMav]
  have hit : (exMav O 1 false).segIterations = 1 := rfl
  rw [hit, Mav.loop, if_neg (by simp [exMav])]
  simp only [Mav.new, hpk]
  rw [if_neg (by omega), c57_no_structure _ _ _ _ (by simp)]
  rcases hdu : ({ structures := List.replicate 2 none, model := bm, running := 0, cls := (), ldpc := () } : Mav Unit Unit).decodeUpdate
    (exMav O 1 false) (exLdpc ok) [1, -1] ((0 : Nat) : Int) (hardBits [1, -1]) with ⟨s', o, r⟩
  have ho : o = ⟨exWord, [1, 1], ok, 3, [], []⟩ := by
    have := congrArg (fun x => x.2.1) hdu
    simp only [Mav.decodeUpdate, exLdpc] at this
    rw [← this]
    split <;> rfl
  simp only [hdu, ho]
  rw [eventOf_some (j := 0) (by simp [pyPos])]
  cases r with
  | error e => rfl
  | ok u => simp only; split <;> rfl

/-- `c57_learned` on that call: when it succeeds the structure of cluster 0 is the two heartbeats and one word was learned,
and cluster 1 has no structure. -/
example (O : StatOps Val ℝ) :
    ((Mav.run (exMav O 1 false) (fun (_ : Unit) _ => ((), .ok 0)) (exLdpc true) (Mav.new 2 (BufferModel.new none) () ())
      [[1, -1]]).1.structures = [some [(2, 0), (20, 0)], none]) ∧
    (Mav.run (exMav O 1 false) (fun (_ : Unit) _ => ((), .ok 0)) (exLdpc true) (Mav.new 2 (BufferModel.new none) () ())
      [[1, -1]]).1.model.modelSize = 1 := by
  have hev : (Mav.run (exMav O 1 false) (fun (_ : Unit) _ => ((), .ok 0)) (exLdpc true)
      (Mav.new 2 (BufferModel.new none) () ()) [[1, -1]]).2.flatMap MavStep.events = _ :=
    (by simp [Mav.run] : _ = ((Mav.new 2 (BufferModel.new none) () ()).decode (exMav O 1 false)
      (fun _ _ => ((), .ok 0)) (exLdpc true) [1, -1]).events).trans (exMav_first O true _)
  obtain ⟨h1, h2, -⟩ := c57_learned (c := exMav O 1 false) rfl (fun (_ : Unit) _ => ((), .ok 0)) (exLdpc true) none () ()
    [[1, -1]] _ _ _ rfl hev.symm rfl
  have hn : (exMav O 1 false).nClusters = 2 := rfl
  rw [hn] at h1 h2
  have hadd : Addable (.bits exWord, [(2, 0), (20, 0)]) := by
    refine ⟨_, rfl, ?_⟩
    intro r hr
    have : (bitsToBytes exWord).length = 37 := by decide +kernel
    rw [this]
    simp at hr
    rcases hr with hr | hr
    · subst hr; exact ⟨Dialect.msg0, by decide +kernel, by decide, by decide, by decide⟩
    · subst hr; exact ⟨Dialect.msg0, by decide +kernel, by decide, by decide, by decide⟩
  constructor
  · refine h1.trans ?_
    have hi : ∀ x, (exMav O 1 false).infoBytes x = sampleBuffer := fun _ => rfl
    simp [List.range_succ, structureAfter, hi, exMessages]
  · refine h2.trans ?_
    have hi : ∀ x, (exMav O 1 false).infoBytes x = sampleBuffer := fun _ => rfl
    simp [learnedWords, structureAfter, hi, exMessages, hadd, sizeAfter]

/-- C56 fails with several segmentation iterations: with two of them and an LDPC decoder that does not succeed, the first
call carries label 1. -/
theorem c56_mavlink_false (O : StatOps Val ℝ) (bm : BufferModel ℝ) :
    ∃ out, ((Mav.new 2 bm () ()).decode (exMav O 2 false) (fun _ _ => ((), .ok 0)) (exLdpc false) [1, -1]).result = .ok out ∧
      out.label = 1 := by
  have step : ∀ (run : Int) (lab : Nat) (left : Nat) (ev : List MavEvent) (inp : List ℝ) (total : Nat) (last : Option MavOut),
      (run + 1) % 2 = (lab : Int) → lab < 2 →
      ∃ ev' out, Mav.loop (exMav O 2 false) (fun _ _ => ((), .ok 0)) (exLdpc false) [1, -1] (left + 1)
        ({ structures := List.replicate 2 none, model := bm, running := run, cls := (), ldpc := () } : Mav Unit Unit)
        ev inp total last =
      Mav.loop (exMav O 2 false) (fun _ _ => ((), .ok 0)) (exLdpc false) [1, -1] left
        ({ structures := List.replicate 2 none, model := bm, running := lab, cls := (), ldpc := () } : Mav Unit Unit)
        ev' [1, 1] (total + 3) (some out) ∧ out.label = lab := by
    intro run lab left ev inp total last hrun hlab
    have hpk : pickLabel (fun (_ : Unit) _ => ((), .ok 0)) (exMav O 2 false).nClusters (exMav O 2 false).cluster () run [] =
        ((), (lab : Int), .ok (lab : Int)) := by simp [pickLabel, exMav, hrun]
    rw [Mav.loop, if_neg (by simp [exMav])]
    simp only [hpk]
    rw [if_neg (by omega), c57_no_structure _ _ _ _ (by rw [List.getElem?_replicate, if_pos hlab])]
    have hp : pyPos 2 (lab : Int) = some lab := by
      unfold pyPos
      rw [if_pos (by omega), if_pos (by omega)]; simp
    have hdu : ({ structures := List.replicate 2 none, model := bm, running := (lab : Int), cls := (), ldpc := () } : Mav Unit Unit).decodeUpdate
        (exMav O 2 false) (exLdpc false) inp (lab : Int) (hardBits [1, -1]) =
        ({ structures := List.replicate 2 none, model := bm, running := (lab : Int), cls := (), ldpc := () },
          ⟨exWord, [1, 1], false, 3, [], []⟩, .ok ()) := by
      obtain rfl | rfl : lab = 0 ∨ lab = 1 := by omega
      · simp [Mav.decodeUpdate, exLdpc, pyPos, Mav.learn, exMav]
      · simp [Mav.decodeUpdate, exLdpc, pyPos, Mav.learn, exMav]
    simp only [hdu, Bool.false_eq_true, if_false]
    exact ⟨_, _, rfl, rfl⟩
  unfold Mav.decode
  have hit : (exMav O 2 false).segIterations = 2 := rfl
  rw [hit]
  obtain ⟨ev1, o1, h1, -⟩ := step (-1) 0 1 [] [1, -1] 0 none (by norm_num) (by norm_num)
  obtain ⟨ev2, o2, h2, h3⟩ := step 0 1 0 ev1 [1, 1] (0 + 3) (some o1) (by norm_num) (by norm_num)
  refine ⟨o2, ?_, h3⟩
  unfold Mav.new
  rw [h1]
  erw [h2]
  rw [Mav.loop]

/-- The hypotheses of `c54_mavlink_passthrough` and `c54_mavlink_false` are met by a classifier in training. -/
example (O : StatOps Val ℝ) (bm : BufferModel ℝ) :
    ((Mav.new 2 bm () ()).decode (exMav O 1 true) (fun _ _ => ((), .ok (-1))) (exLdpc true) [1, -1]).state.structures[1]? =
      some (some [(2, 0), (20, 0)]) := by
  have := (c54_mavlink_false (exMav O 1 true) (fun _ _ => ((), .ok (-1))) (exLdpc true) (Mav.new 2 bm () ()) [1, -1]
    (by simp [exMav]) rfl (by simp [exMav]) rfl (by simp [exMav, Mav.new]) () [false]
    (by simp [exMav, takeIdx, hardBits]) rfl rfl).1
  rw [exMessages.symm]
  exact this

end NR

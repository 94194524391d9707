import Verif.Props.C68
import Verif.Props.C138
/-
C143: decoders whose structures name fields the model has never seen.
-/
namespace NR.C143
open NR NR.Spec Dialect NR.C116 NR.C138

variable {σ Λ μ : Type}

/-- The structure holds a field under whose name the model has nothing. -/
def Lacks (m : BufferModel μ) (st : List (Nat × Nat)) : Prop := ∃ q ∈ fieldPlaces st, m.models.lookup q.name = none

/-! ### predictions -/

theorem predictLoop_none (O : StatOps Val μ) (bits : List Int) (j : Nat) (items : List (Nat × String × Val))
    (ms : List (String × FieldModel Val μ)) (hj : ∀ x ∈ items, x.1 = j → ms.lookup x.2.1 = none) (p p' : BufferModel.Prediction μ)
    (ms' : List (String × FieldModel Val μ)) (hp : p.fields[j]? = some none) (h : BufferModel.predictLoop O bits ms p items = (ms', .ok p')) :
    p'.fields[j]? = some none := by
  induction items generalizing ms p with
  | nil =>
    simp only [BufferModel.predictLoop, Prod.mk.injEq, Except.ok.injEq] at h
    rw [← h.2]; exact hp
  | cons x items ih =>
    obtain ⟨i, name, v⟩ := x
    unfold BufferModel.predictLoop at h
    cases hl : ms.lookup name with
    | none =>
      rw [hl] at h
      exact ih ms (fun x hx => hj x (List.mem_cons_of_mem _ hx)) p hp h
    | some m =>
      have hne : i ≠ j := by
        intro e
        have := hj _ List.mem_cons_self e
        simp only at this
        rw [hl] at this; cases this
      rw [hl] at h
      simp only at h
      split at h
      · rename_i m' val std hr
        refine ih _ ?_ _ ?_ h
        · intro x hx e
          have h0 := hj x (List.mem_cons_of_mem _ hx) e
          rw [lookup_dictSet]
          split
          · rename_i he
            rw [he, hl] at h0; cases h0
          · exact h0
        · simp only
          rw [List.getElem?_set_ne hne]; exact hp
      · cases h
      · cases h

theorem inRange_mono {a b : Nat} (h : a ≤ b) {st : List (Nat × Nat)} (hs : InRange a st) : InRange b st := fun r hr => by
  obtain ⟨m, h1, h2, h3, h4⟩ := hs r hr
  exact ⟨m, h1, h2, h3, by omega⟩

theorem predict_lacks (O : StatOps Val μ) (bm : BufferModel μ) (l : List Bool) (st : List (Nat × Nat)) (hl : Lacks bm st)
    (m' : BufferModel μ) (p : BufferModel.Prediction μ) (h : bm.predict O (.bits l) st = (m', .ok p)) : p.fields.any Option.isNone = true := by
  unfold BufferModel.predict at h
  simp only [BufferModel.argLen, bind, Except.bind] at h
  cases hu : unpackStructure true (l.length / 8) st with
  | error e => rw [hu] at h; cases h
  | ok r =>
    have hs := (c31_returns_iff _ _).1 ⟨r, hu⟩
    obtain ⟨arr, h1, _⟩ := unpackStructure_ok hs
    have hb : InRange (bitsToBytes l).length st := inRange_mono (by simp [bitsToBytes]; omega) hs
    rw [h1] at h
    simp only [unpackValues, unpackLoop_ok hb] at h
    obtain ⟨q, hq, hn⟩ := hl
    obtain ⟨j, hj⟩ := List.mem_iff_getElem?.1 hq
    have hlt : j < (fieldPlaces st).length := (List.getElem?_eq_some_iff.1 hj).1
    generalize hps : fieldPlaces st = ps at *
    generalize hx : BufferModel.predictLoop O arr bm.models
      ⟨List.replicate (ps.map fun p => unpackScalar p.type (p.bytes (bitsToBytes l))).length none, List.replicate arr.length none,
        List.replicate arr.length none⟩ _ = x at h
    obtain ⟨ms, r⟩ := x
    simp only [Prod.mk.injEq] at h
    obtain ⟨_, rfl⟩ := h
    have := predictLoop_none O arr j _ bm.models ?_ _ p ms (by simp [hlt]) hx
    · rw [List.any_eq_true]
      exact ⟨none, List.mem_of_getElem? this, rfl⟩
    · intro x hx e
      obtain ⟨k, hk⟩ := List.mem_iff_getElem?.1 hx
      rw [List.getElem?_zip_eq_some, List.getElem?_zip_eq_some] at hk
      obtain ⟨k1, k2, _⟩ := hk
      have hk' : k = j := by
        have := (List.getElem?_eq_some_iff.1 k1).2
        simp at this
        omega
      subst hk'
      rw [List.getElem?_map, hj] at k2
      simp only [Option.map_some, Option.some.injEq] at k2
      rw [← k2]; exact hn

theorem fieldsWhere_lacks (cond : ℝ → Prop) (fields : List (Option (String × ℝ × ℝ))) (h : fields.any Option.isNone = true) :
    fieldsWhere cond fields = .error .typeError := by
  unfold fieldsWhere
  rw [if_pos h]

theorem lacks_same {a b : BufferModel μ} (h : SameContent a b) {st : List (Nat × Nat)} (hl : Lacks b st) : Lacks a st := by
  obtain ⟨q, hq, hn⟩ := hl
  refine ⟨q, hq, ?_⟩
  have := h.fields q.name
  rw [hn] at this
  simpa using this

theorem mav_predict_lacks (c : MavCfg) (s : Mav σ Λ) (obs : List ℝ) (label : Int)
    (h : ∀ x ∈ s.structures, ∃ st, x = some st ∧ Lacks s.model st) : ∃ e, (s.predict c obs label).2 = .error e := by
  unfold Mav.predict
  cases hp : pyPos s.structures.length label with
  | none => exact ⟨_, rfl⟩
  | some j =>
    simp only
    have hj := pyPos_lt hp
    obtain ⟨st, hst, hl⟩ := h _ (List.getElem_mem hj)
    have : s.structures.getD j none = some st := by simp [List.getD_eq_getElem?_getD, hj, hst]
    rw [this]
    simp only
    cases hx : s.model.predict c.stats (.bits (hardBits obs)) st with
    | mk m r =>
      cases r with
      | error e => exact ⟨e, rfl⟩
      | ok p =>
        simp only
        rw [fieldsWhere_lacks _ _ (predict_lacks c.stats s.model _ st hl m p hx)]
        exact ⟨_, rfl⟩

theorem mav_stuck (c : MavCfg) (hc : c.cluster = false ∨ c.nClusters ≤ 1) (cls : Labeler σ) (ldpc : Ldpc Λ) (s : Mav σ Λ) (ch : List ℝ)
    (h : ∀ x ∈ s.structures, ∃ st, x = some st ∧ Lacks s.model st) :
    (∃ e, (s.decode c cls ldpc ch).result = .error e) ∧ (s.decode c cls ldpc ch).events = [] ∧
      SameContent (s.decode c cls ldpc ch).state.model s.model ∧ (s.decode c cls ldpc ch).state.structures = s.structures ∧
      (s.decode c cls ldpc ch).state.ldpc = s.ldpc := by
  unfold Mav.decode
  cases c.segIterations with
  | zero => exact ⟨⟨_, rfl⟩, rfl, SameContent.rfl' _, rfl, rfl⟩
  | succ left =>
    unfold Mav.loop
    have h1 : ¬ (1 < c.nClusters ∧ c.cluster = true) := by
      rintro ⟨a, b⟩
      rcases hc with hc | hc
      · rw [hc] at b; cases b
      · omega
    rw [if_neg h1]
    simp only
    have hpk : ∃ run label, pickLabel cls c.nClusters c.cluster s.cls s.running [] = (s.cls, run, .ok label) ∧ 0 ≤ label := by
      unfold pickLabel
      split
      · have hf : c.cluster = false := by
          rcases hc with hc | hc
          · exact hc
          · omega
        rw [hf]
        exact ⟨_, _, rfl, Int.emod_nonneg _ (by omega)⟩
      · exact ⟨_, _, rfl, le_refl _⟩
    obtain ⟨run, label, hpk, h0⟩ := hpk
    rw [hpk]
    simp only
    rw [if_neg (by omega)]
    obtain ⟨e, he⟩ := mav_predict_lacks c { s with running := run } ch label h
    obtain ⟨m, hm, hsame⟩ := mavPredict_pres c { s with running := run } ch label (SameContent · s.model) (cache_same c.stats s.model)
      (SameContent.rfl' _)
    cases hx : ({ s with running := run } : Mav σ Λ).predict c ch label with
    | mk s2 r =>
      rw [hx] at he hm
      simp only at he hm
      subst he hm
      exact ⟨⟨_, rfl⟩, rfl, hsame, rfl, rfl⟩

/-- **C143.** A MAVLink decoder without a classifier, all of whose clusters have a structure with a field the model has never seen, is stuck,
whether it learns or not: over any run every call raises before the LDPC decoder is asked, and so nothing is ever learned. -/
theorem c143_stuck (c : MavCfg) (hc : c.cluster = false ∨ c.nClusters ≤ 1) (cls : Labeler σ) (ldpc : Ldpc Λ) (s : Mav σ Λ)
    (h : ∀ x ∈ s.structures, ∃ st, x = some st ∧ ∃ q ∈ fieldPlaces st, s.model.models.lookup q.name = none) (words : List (List ℝ)) :
    (∀ step ∈ (s.run c cls ldpc words).2, (∃ e, step.result = .error e) ∧ step.events = []) ∧
      SameContent (s.run c cls ldpc words).1.model s.model ∧ (s.run c cls ldpc words).1.structures = s.structures ∧
      (s.run c cls ldpc words).1.ldpc = s.ldpc := by
  induction words generalizing s with
  | nil => exact ⟨fun _ hx => (by cases hx), SameContent.rfl' _, rfl, rfl⟩
  | cons ch words ih =>
    obtain ⟨d1, d2, d3, d4, d5⟩ := mav_stuck c hc cls ldpc s ch h
    obtain ⟨i1, i2, i3, i4⟩ := ih (s.decode c cls ldpc ch).state (fun x hx => by
      rw [d4] at hx
      obtain ⟨st, hst, hl⟩ := h x hx
      exact ⟨st, hst, lacks_same d3 hl⟩)
    refine ⟨?_, i2.trans' d3, i3.trans d4, i4.trans d5⟩
    intro step hx
    rcases List.mem_cons.1 hx with rfl | hx
    · exact ⟨d1, d2⟩
    · exact i1 step hx

/-! ### the combined decoders -/

theorem comb_predict_lacks (c : CombCfg) (s : Comb σ Λ) (obs : List ℝ) (label : Nat)
    (h : ∀ x ∈ s.mav.structures, ∃ st, x = some st ∧ Lacks s.mav.model st) : ∃ e, (s.mavlinkPrediction c obs label).2 = .error e := by
  unfold Comb.mavlinkPrediction
  cases hp : s.mav.structures[label]? with
  | none => exact ⟨_, rfl⟩
  | some x =>
    obtain ⟨st, rfl, hl⟩ := h _ (List.mem_of_getElem? hp)
    simp only
    cases hx : s.mav.model.predict c.mav.stats (.bits (hardBits obs)) st with
    | mk m r =>
      cases r with
      | error e => exact ⟨e, rfl⟩
      | ok p =>
        simp only
        rw [fieldsWhere_lacks _ _ (predict_lacks c.mav.stats s.mav.model _ st hl m p hx)]
        exact ⟨_, rfl⟩

/-- **C143.** The combined decoders likewise, with a classifier too: calls before the classifier is trained are plain LDPC decoding of the
received word, every other call raises before the LDPC decoder is asked, and neither the field models nor the entropy models ever learn. -/
theorem c143_combined (c : CombCfg) (cls : Labeler σ) (ldpc : Ldpc Λ) (s : Comb σ Λ)
    (h : ∀ x ∈ s.mav.structures, ∃ st, x = some st ∧ ∃ q ∈ fieldPlaces st, s.mav.model.models.lookup q.name = none) (words : List (List ℝ)) :
    (∀ step ∈ (s.run c cls ldpc words).2, step.events = [] ∧ step.learned = none ∧
      (((∃ e, step.result = .error e) ∧ step.handed = none) ∨ ∃ r, step.result = .ok r ∧ r.label < 0)) ∧
      SameContent (s.run c cls ldpc words).1.mav.model s.mav.model ∧ (s.run c cls ldpc words).1.mav.structures = s.mav.structures ∧
      (s.run c cls ldpc words).1.ent = s.ent := by
  induction words generalizing s with
  | nil => exact ⟨fun _ hx => (by cases hx), SameContent.rfl' _, rfl, rfl⟩
  | cons ch words ih =>
    have key : ((s.decode c cls ldpc ch).events = [] ∧ (s.decode c cls ldpc ch).learned = none ∧
        (((∃ e, (s.decode c cls ldpc ch).result = .error e) ∧ (s.decode c cls ldpc ch).handed = none) ∨
          ∃ r, (s.decode c cls ldpc ch).result = .ok r ∧ r.label < 0)) ∧
        SameContent (s.decode c cls ldpc ch).state.mav.model s.mav.model ∧
        (s.decode c cls ldpc ch).state.mav.structures = s.mav.structures ∧ (s.decode c cls ldpc ch).state.ent = s.ent := by
      rcases comb_cases c cls ldpc s ch (SameContent · s.mav.model) (cache_same c.mav.stats s.mav.model) (SameContent.rfl' _) with
        ⟨model, cs, run, e, hm, h'⟩ | ⟨cs, run, label, hneg, h'⟩ | ⟨model, cs, run, inp0, inp, label, _, hp, _, _⟩
      · rw [h']
        exact ⟨⟨rfl, rfl, Or.inl ⟨⟨e, rfl⟩, rfl⟩⟩, hm, rfl, rfl⟩
      · rw [h']
        exact ⟨⟨rfl, rfl, Or.inr ⟨_, rfl, hneg⟩⟩, SameContent.rfl' _, rfl, rfl⟩
      · obtain ⟨e, he⟩ := comb_predict_lacks c { s with mav := { s.mav with cls := cs, running := run } } ch label h
        rw [hp] at he; cases he
    obtain ⟨d1, d2, d3, d4⟩ := key
    obtain ⟨i1, i2, i3, i4⟩ := ih (s.decode c cls ldpc ch).state (fun x hx => by
      rw [d3] at hx
      obtain ⟨st, hst, hl⟩ := h x hx
      exact ⟨st, hst, lacks_same d2 hl⟩)
    refine ⟨?_, i2.trans' d2, i3.trans d3, i4.trans d4⟩
    intro step hx
    rcases List.mem_cons.1 hx with rfl | hx
    · exact d1
    · exact i1 step hx

/-! ### new models -/

theorem msgPlaces_ne {len : Nat} {st : List (Nat × Nat)} (hs : InRange len st) (hne : st ≠ []) (name : String) (hname : name = "seq") :
    ∃ q ∈ fieldPlaces st, q.name = name := by
  cases st with
  | nil => exact absurd rfl hne
  | cons r st =>
    obtain ⟨m, hm, hid, _, _⟩ := hs r List.mem_cons_self
    have hl : lookupMsg r.2 = some m := by rw [← hid]; exact lookupMsg_mem hm
    refine ⟨⟨"seq", .u8, r.1 + 1 + 1⟩, ?_, hname.symm⟩
    simp only [fieldPlaces, List.flatMap_cons, List.mem_append]
    left
    simp only [msgPlaces, hl, msgFieldList, List.cons_append, placeFrom, width]
    simp

theorem predictLoop_empty (O : StatOps Val μ) (bits : List Int) (p : BufferModel.Prediction μ) (items : List (Nat × String × Val)) :
    BufferModel.predictLoop O bits [] p items = ([], .ok p) := by
  induction items with
  | nil => rfl
  | cons x items ih =>
    obtain ⟨i, name, v⟩ := x
    unfold BufferModel.predictLoop
    simp only [List.lookup_nil]
    exact ih

theorem predict_empty (O : StatOps Val μ) (bm : BufferModel μ) (hm : bm.models = []) (l : List Bool) (st : List (Nat × Nat)) (hne : st ≠ [])
    (hs : InRange (l.length / 8) st) : ∃ p, bm.predict O (.bits l) st = (bm, .ok p) ∧ p.fields.any Option.isNone = true := by
  obtain ⟨arr, h1, _⟩ := unpackStructure_ok hs
  have hb : InRange (bitsToBytes l).length st := inRange_mono (by simp [bitsToBytes]; omega) hs
  have hx : ∃ p, bm.predict O (.bits l) st = (bm, .ok p) := by
    unfold BufferModel.predict
    simp only [BufferModel.argLen, bind, Except.bind, h1, unpackValues, unpackLoop_ok hb]
    obtain ⟨ms, sz, d, w, o⟩ := bm
    simp only at hm
    subst hm
    simp only [predictLoop_empty]
    exact ⟨_, rfl⟩
  obtain ⟨p, hp⟩ := hx
  obtain ⟨q, hq, _⟩ := msgPlaces_ne hs hne "seq" rfl
  exact ⟨p, hp, predict_lacks O bm l st ⟨q, hq, by rw [hm]; rfl⟩ bm p hp⟩

/-- Without a classifier the label is the index of a cluster. -/
theorem pick_ok (cls : Labeler σ) (n : Nat) (hn : 0 < n) (cluster : Bool) (hc : cluster = false ∨ n ≤ 1) (s : σ) (running : Int) (bits : List Bool) :
    ∃ run, ∃ label : Nat, pickLabel cls n cluster s running bits = (s, run, .ok (label : Int)) ∧ label < n := by
  unfold pickLabel
  split
  · have hf : cluster = false := by
      rcases hc with hc | hc
      · exact hc
      · omega
    rw [hf]
    have h1 := Int.emod_nonneg (running + 1) (b := (n : Int)) (by omega)
    have h2 := Int.emod_lt_of_pos (running + 1) (b := (n : Int)) (by omega)
    refine ⟨(running + 1) % n, ((running + 1) % n).toNat, ?_, by omega⟩
    simp only [Bool.false_eq_true, if_false]
    rw [Int.toNat_of_nonneg h1]
  · exact ⟨_, 0, rfl, hn⟩

theorem mav_fresh (c : MavCfg) (hc : c.cluster = false ∨ c.nClusters ≤ 1) (hi : 0 < c.segIterations) (hn : 0 < c.nClusters) (cls : Labeler σ)
    (ldpc : Ldpc Λ) (s : Mav σ Λ) (ch : List ℝ) (hl : s.structures.length = c.nClusters) (hm : s.model.models = [])
    (h : ∀ x ∈ s.structures, ∃ st, x = some st ∧ st ≠ [] ∧ InRange (ch.length / 8) st) :
    (s.decode c cls ldpc ch).result = .error .typeError ∧ (s.decode c cls ldpc ch).events = [] ∧
      ∃ run, (s.decode c cls ldpc ch).state = { s with running := run } := by
  unfold Mav.decode
  obtain ⟨left, hleft⟩ := Nat.exists_eq_succ_of_ne_zero (by omega : c.segIterations ≠ 0)
  rw [hleft]
  unfold Mav.loop
  have h1 : ¬ (1 < c.nClusters ∧ c.cluster = true) := by
    rintro ⟨a, b⟩
    rcases hc with hc | hc
    · rw [hc] at b; cases b
    · omega
  rw [if_neg h1]
  simp only
  obtain ⟨run, label, hpk, hlt⟩ := pick_ok cls c.nClusters hn c.cluster hc s.cls s.running []
  rw [hpk]
  simp only
  rw [if_neg (by omega)]
  obtain ⟨st, hst, hne, hr⟩ := h _ (List.getElem_mem (show label < s.structures.length by omega))
  have hp : pyPos s.structures.length (label : Int) = some label := by
    unfold pyPos
    rw [if_pos (by omega), if_pos (by omega)]
    simp
  obtain ⟨p, hpr, hany⟩ := predict_empty c.stats s.model hm (hardBits ch) st hne (by simpa [hardBits] using hr)
  have hx : ({ s with running := run } : Mav σ Λ).predict c ch label = ({ s with running := run }, .error .typeError) := by
    unfold Mav.predict
    simp only [hp]
    have : s.structures.getD label none = some st := by simp [List.getD_eq_getElem?_getD, hl, hlt, hst]
    rw [this]
    simp only [hpr]
    rw [fieldsWhere_lacks _ _ hany]
  rw [hx]
  exact ⟨rfl, rfl, run, rfl⟩

/-- **C143.** In particular a learning MAVLink decoder that is given the structures of its buffers before it has learned anything: every call of
any run raises a TypeError, and its model stays empty. -/
theorem c143_fresh (c : MavCfg) (hc : c.cluster = false ∨ c.nClusters ≤ 1) (hi : 0 < c.segIterations) (hn : 0 < c.nClusters) (cls : Labeler σ)
    (ldpc : Ldpc Λ) (w : Option Nat) (cs : σ) (l : Λ) (structs : List (Option (List (Nat × Nat)))) (hl : structs.length = c.nClusters) (len : Nat)
    (h : ∀ x ∈ structs, ∃ st, x = some st ∧ st ≠ [] ∧ InRange len st) (words : List (List ℝ)) (hw : ∀ ch ∈ words, 8 * len ≤ ch.length) :
    ∃ t, (Mav.new c.nClusters (BufferModel.new w) cs l).setStructures c structs = (t, .ok ()) ∧
      (∀ step ∈ (t.run c cls ldpc words).2, step.result = .error .typeError ∧ step.events = []) ∧
      (t.run c cls ldpc words).1.model = BufferModel.new w ∧ (t.run c cls ldpc words).1.ldpc = l := by
  refine ⟨{ (Mav.new c.nClusters (BufferModel.new w) cs l : Mav σ Λ) with structures := structs }, ?_, ?_⟩
  · unfold Mav.setStructures
    rw [if_neg (by simpa using hl)]
  · have key : ∀ (words : List (List ℝ)), (∀ ch ∈ words, 8 * len ≤ ch.length) → ∀ t : Mav σ Λ, t.structures = structs →
        t.model = BufferModel.new w → t.ldpc = l →
        (∀ step ∈ (t.run c cls ldpc words).2, step.result = .error .typeError ∧ step.events = []) ∧
        (t.run c cls ldpc words).1.model = BufferModel.new w ∧ (t.run c cls ldpc words).1.ldpc = l := by
      intro words
      induction words with
      | nil => intro _ t _ h2 h3; exact ⟨fun _ hx => (by cases hx), h2, h3⟩
      | cons ch words ih =>
        intro hw t h1 h2 h3
        have hch := hw ch List.mem_cons_self
        obtain ⟨d1, d2, run, d3⟩ := mav_fresh c hc hi hn cls ldpc t ch (by rw [h1]; exact hl) (by rw [h2]; rfl) (fun x hx => by
          rw [h1] at hx
          obtain ⟨st, e1, e2, e3⟩ := h x hx
          exact ⟨st, e1, e2, inRange_mono (by omega) e3⟩)
        obtain ⟨i1, i2⟩ := ih (fun ch hx => hw ch (List.mem_cons_of_mem _ hx)) (t.decode c cls ldpc ch).state (by rw [d3]; exact h1)
          (by rw [d3]; exact h2) (by rw [d3]; exact h3)
        refine ⟨?_, i2⟩
        intro step hx
        rcases List.mem_cons.1 hx with rfl | hx
        · exact ⟨d1, d2⟩
        · exact i1 step hx
    exact key words hw _ rfl rfl rfl

theorem comb_fresh (c : CombCfg) (hc : c.mav.cluster = false ∨ c.mav.nClusters ≤ 1) (hn : 0 < c.mav.nClusters) (cls : Labeler σ)
    (ldpc : Ldpc Λ) (s : Comb σ Λ) (ch : List ℝ) (hl : s.mav.structures.length = c.mav.nClusters) (hm : s.mav.model.models = [])
    (h : ∀ x ∈ s.mav.structures, ∃ st, x = some st ∧ st ≠ [] ∧ InRange (ch.length / 8) st) :
    (s.decode c cls ldpc ch).result = .error .typeError ∧ (s.decode c cls ldpc ch).handed = none ∧
      ∃ run, (s.decode c cls ldpc ch).state = { s with mav := { s.mav with running := run } } := by
  unfold Comb.decode
  have h1 : ¬ (1 < c.mav.nClusters ∧ c.mav.cluster = true) := by
    rintro ⟨a, b⟩
    rcases hc with hc | hc
    · rw [hc] at b; cases b
    · omega
  rw [if_neg h1]
  simp only
  obtain ⟨run, label, hpk, hlt⟩ := pick_ok cls c.mav.nClusters hn c.mav.cluster hc s.mav.cls s.mav.running []
  rw [hpk]
  simp only
  rw [if_neg (by omega)]
  obtain ⟨st, hst, hne, hr⟩ := h _ (List.getElem_mem (show label < s.mav.structures.length by omega))
  obtain ⟨p, hpr, hany⟩ := predict_empty c.mav.stats s.mav.model hm (hardBits ch) st hne (by simpa [hardBits] using hr)
  have hx : Comb.mavlinkPrediction c ({ s with mav := { s.mav with running := run } } : Comb σ Λ) ch label =
      ({ s with mav := { s.mav with running := run } }, .error .typeError) := by
    unfold Comb.mavlinkPrediction
    have : s.mav.structures[label]? = some (some st) := by simp [hl, hlt, hst]
    simp only [this, hpr]
    rw [fieldsWhere_lacks _ _ hany]
  rw [Int.toNat_natCast, hx]
  exact ⟨rfl, rfl, run, rfl⟩

/-- **C143.** And so with the combined decoders. -/
theorem c143_fresh_combined (c : CombCfg) (hc : c.mav.cluster = false ∨ c.mav.nClusters ≤ 1) (hn : 0 < c.mav.nClusters) (cls : Labeler σ)
    (ldpc : Ldpc Λ) (w : Option Nat) (cs : σ) (l : Λ) (structs : List (Option (List (Nat × Nat)))) (hl : structs.length = c.mav.nClusters) (len : Nat)
    (h : ∀ x ∈ structs, ∃ st, x = some st ∧ st ≠ [] ∧ InRange len st) (words : List (List ℝ)) (hw : ∀ ch ∈ words, 8 * len ≤ ch.length) :
    ∃ t, (Comb.new c.mav.nClusters (BufferModel.new w) cs l).setStructures c structs = (t, .ok ()) ∧
      (∀ step ∈ (t.run c cls ldpc words).2, step.result = .error .typeError ∧ step.handed = none) ∧
      (t.run c cls ldpc words).1.mav.model = BufferModel.new w ∧ (t.run c cls ldpc words).1.ent = Ced.new c.mav.nClusters () () := by
  refine ⟨{ (Comb.new c.mav.nClusters (BufferModel.new w) cs l : Comb σ Λ) with
    mav := { (Mav.new c.mav.nClusters (BufferModel.new w) cs l : Mav σ Λ) with structures := structs } }, ?_, ?_⟩
  · unfold Comb.setStructures Mav.setStructures
    rw [if_neg (by simpa using hl)]
    rfl
  · have key : ∀ (words : List (List ℝ)), (∀ ch ∈ words, 8 * len ≤ ch.length) → ∀ t : Comb σ Λ, t.mav.structures = structs →
        t.mav.model = BufferModel.new w → t.ent = Ced.new c.mav.nClusters () () →
        (∀ step ∈ (t.run c cls ldpc words).2, step.result = .error .typeError ∧ step.handed = none) ∧
        (t.run c cls ldpc words).1.mav.model = BufferModel.new w ∧ (t.run c cls ldpc words).1.ent = Ced.new c.mav.nClusters () () := by
      intro words
      induction words with
      | nil => intro _ t _ h2 h3; exact ⟨fun _ hx => (by cases hx), h2, h3⟩
      | cons ch words ih =>
        intro hw t h1 h2 h3
        have hch := hw ch List.mem_cons_self
        obtain ⟨d1, d2, run, d3⟩ := comb_fresh c hc hn cls ldpc t ch (by rw [h1]; exact hl) (by rw [h2]; rfl) (fun x hx => by
          rw [h1] at hx
          obtain ⟨st, e1, e2, e3⟩ := h x hx
          exact ⟨st, e1, e2, inRange_mono (by omega) e3⟩)
        obtain ⟨i1, i2⟩ := ih (fun ch hx => hw ch (List.mem_cons_of_mem _ hx)) (t.decode c cls ldpc ch).state (by rw [d3]; exact h1)
          (by rw [d3]; exact h2) (by rw [d3]; exact h3)
        refine ⟨?_, i2⟩
        intro step hx
        rcases List.mem_cons.1 hx with rfl | hx
        · exact ⟨d1, d2⟩
        · exact i1 step hx
    exact key words hw _ rfl rfl rfl

/-! ### models trained field by field -/

/-- **C143.** A model trained field by field, as the segmentation example does, cannot be used by a decoder at all: whatever it was trained on and
whatever the structures are, if each holds a message then every call of any run raises, and the LDPC decoder is never asked. -/
theorem c143_field_trained (c : MavCfg) (hc : c.cluster = false ∨ c.nClusters ≤ 1) (cls : Labeler σ) (ldpc : Ldpc Λ) (w : Option Nat)
    (bufs : List (List Byte)) (msgs : List (List MavMsg)) (hb : ∀ b ∈ bufs, messagesIn b ≠ [] ∧ Plain (messagesIn b))
    (hd : List.Forall₂ (fun b ms => DecodedAs b (messagesIn b) ms) bufs msgs) (cs : σ) (l : Λ) (structs : List (Option (List (Nat × Nat)))) (len : Nat)
    (h : ∀ x ∈ structs, ∃ st, x = some st ∧ st ≠ [] ∧ InRange len st) (s : Mav σ Λ)
    (hs : s = ((Mav.new c.nClusters (trainAll c.stats (BufferModel.new w) bufs).1 cs l).setStructures c structs).1)
    (hl : structs.length = c.nClusters) (words : List (List ℝ)) :
    ∀ step ∈ (s.run c cls ldpc words).2, (∃ e, step.result = .error e) ∧ step.events = [] := by
  refine (c143_stuck c hc cls ldpc s ?_ words).1
  unfold Mav.setStructures at hs
  rw [if_neg (by simpa using hl)] at hs
  subst hs
  intro x hx
  obtain ⟨st, e1, e2, e3⟩ := h x hx
  obtain ⟨q, hq, hqn⟩ := msgPlaces_ne e3 e2 "seq" rfl
  exact ⟨st, e1, q, hq, by rw [hqn]; exact (C138.c138_headers c.stats w bufs msgs hb hd "seq").2 (by decide)⟩

/-! ### predefined models without structures -/

theorem unused_step (c : MavCfg) (hl : c.learning = false) (hi : c.segIterations = 1) (cls : Labeler σ) (ldpc : Ldpc Λ) (s : Mav σ Λ) (ch : List ℝ)
    (h : ∀ x ∈ s.structures, x = none) :
    (s.decode c cls ldpc ch).state.structures = s.structures ∧ (s.decode c cls ldpc ch).state.model = s.model ∧
      ∀ out, (s.decode c cls ldpc ch).result = .ok out → out.estimate = (ldpc s.ldpc (.llr ch)).2.estimate ∧
        out.llr = (ldpc s.ldpc (.llr ch)).2.llr ∧ out.success = (ldpc s.ldpc (.llr ch)).2.success ∧
        out.iterations = (ldpc s.ldpc (.llr ch)).2.iterations ∧ out.goodFields = [] ∧ out.badFields = [] := by
  have hup : ∀ (t : Mav σ Λ) (label : Int) (rx : List Bool), ∃ r, t.decodeUpdate c ldpc ch label rx =
      ({ t with ldpc := (ldpc t.ldpc (.llr ch)).1 }, (ldpc t.ldpc (.llr ch)).2, r) := by
    intro t label rx
    unfold Mav.decodeUpdate
    simp only
    split
    · exact ⟨_, rfl⟩
    · rw [learn_frozen c hl]
      exact ⟨_, rfl⟩
  unfold Mav.decode
  rw [hi]
  unfold Mav.loop
  cases (if 1 < c.nClusters ∧ c.cluster = true then takeIdx (hardBits ch) c.idx else .ok []) with
  | error e => exact ⟨rfl, rfl, fun out ho => by cases ho⟩
  | ok bits =>
    simp only
    rcases pickLabel cls c.nClusters c.cluster s.cls s.running bits with ⟨cs, run, lab⟩
    cases lab with
    | error e => exact ⟨rfl, rfl, fun out ho => by cases ho⟩
    | ok label =>
      simp only
      split
      · obtain ⟨r, hr⟩ := hup { s with cls := cs, running := run } label (hardBits ch)
        rw [hr]
        refine ⟨rfl, rfl, fun out ho => ?_⟩
        cases r with
        | error e => cases ho
        | ok u => cases ho; exact ⟨rfl, rfl, rfl, rfl, rfl, rfl⟩
      · have hp : ({ s with cls := cs, running := run } : Mav σ Λ).predict c ch label =
            ({ s with cls := cs, running := run }, .error .indexError) ∨
            ({ s with cls := cs, running := run } : Mav σ Λ).predict c ch label =
              ({ s with cls := cs, running := run }, .ok ⟨ch, [], [], 0, none, []⟩) := by
          unfold Mav.predict
          simp only
          cases hpos : pyPos s.structures.length label with
          | none => exact Or.inl rfl
          | some j =>
            have hj := pyPos_lt hpos
            have : s.structures.getD j none = none := by
              rw [List.getD_eq_getElem?_getD, List.getElem?_eq_getElem hj]
              exact h _ (List.getElem_mem hj)
            simp only [this]
            exact Or.inr trivial
        rcases hp with hp | hp
        · rw [hp]
          exact ⟨rfl, rfl, fun out ho => by cases ho⟩
        · rw [hp]
          simp only
          obtain ⟨r, hr⟩ := hup { s with cls := cs, running := run } label (hardBits ch)
          rw [hr]
          simp only
          cases r with
          | error e => exact ⟨rfl, rfl, fun out ho => by cases ho⟩
          | ok u =>
            simp only
            split
            · refine ⟨rfl, rfl, fun out ho => ?_⟩
              cases ho
              exact ⟨rfl, rfl, rfl, by simp, rfl, rfl⟩
            · refine ⟨rfl, rfl, fun out ho => ?_⟩
              cases ho
              exact ⟨rfl, rfl, rfl, by simp, rfl, rfl⟩

/-- **C143.** A MAVLink decoder with a predefined model that was not given structures never uses the model, over any run: each call that returns
gives what the LDPC decoder makes of the received word (one segmentation iteration), and no structure is ever learned. -/
theorem c143_unused (c : MavCfg) (hl : c.learning = false) (hi : c.segIterations = 1) (cls : Labeler σ) (ldpc : Ldpc Λ) (model : BufferModel ℝ)
    (cs : σ) (l : Λ) (words : List (List ℝ)) (s : Mav σ Λ) (hs : s = Mav.new c.nClusters model cs l) :
    (s.run c cls ldpc words).1.structures = List.replicate c.nClusters none ∧ (s.run c cls ldpc words).1.model = model ∧
      List.Forall₂ (fun (ch : List ℝ) (step : MavStep σ Λ) => ∀ out, step.result = .ok out → ∃ m, out.estimate = (ldpc m (.llr ch)).2.estimate ∧
        out.llr = (ldpc m (.llr ch)).2.llr ∧ out.success = (ldpc m (.llr ch)).2.success ∧ out.iterations = (ldpc m (.llr ch)).2.iterations ∧
        out.goodFields = [] ∧ out.badFields = []) words (s.run c cls ldpc words).2 := by
  have key : ∀ (words : List (List ℝ)) (s : Mav σ Λ), s.structures = List.replicate c.nClusters none → s.model = model →
      (s.run c cls ldpc words).1.structures = List.replicate c.nClusters none ∧ (s.run c cls ldpc words).1.model = model ∧
      List.Forall₂ (fun (ch : List ℝ) (step : MavStep σ Λ) => ∀ out, step.result = .ok out → ∃ m, out.estimate = (ldpc m (.llr ch)).2.estimate ∧
        out.llr = (ldpc m (.llr ch)).2.llr ∧ out.success = (ldpc m (.llr ch)).2.success ∧ out.iterations = (ldpc m (.llr ch)).2.iterations ∧
        out.goodFields = [] ∧ out.badFields = []) words (s.run c cls ldpc words).2 := by
    intro words
    induction words with
    | nil => intro s h1 h2; exact ⟨h1, h2, List.Forall₂.nil⟩
    | cons ch words ih =>
      intro s h1 h2
      obtain ⟨d1, d2, d3⟩ := unused_step c hl hi cls ldpc s ch (fun x hx => by rw [h1] at hx; exact (List.mem_replicate.1 hx).2)
      obtain ⟨i1, i2, i3⟩ := ih (s.decode c cls ldpc ch).state (d1.trans h1) (d2.trans h2)
      exact ⟨i1, i2, List.Forall₂.cons (fun out ho => ⟨_, d3 out ho⟩) i3⟩
  exact key words s (by rw [hs]; rfl) (by rw [hs]; rfl)

/-- **C143.** Without a classifier each such call does return. -/
theorem c143_unused_returns (c : MavCfg) (hl : c.learning = false) (hi : c.segIterations = 1) (h0 : 0 < c.nClusters)
    (hc : c.nClusters = 1 ∨ c.cluster = false) (cls : Labeler σ) (ldpc : Ldpc Λ) (model : BufferModel ℝ) (cs : σ) (l : Λ) (words : List (List ℝ)) :
    ∀ step ∈ ((Mav.new c.nClusters model cs l : Mav σ Λ).run c cls ldpc words).2, ∃ out, step.result = .ok out := by
  have one : ∀ (s : Mav σ Λ) (ch : List ℝ), s.structures = List.replicate c.nClusters none → ∃ out, (s.decode c cls ldpc ch).result = .ok out := by
    intro s ch h
    have hnc : ¬ (1 < c.nClusters ∧ c.cluster = true) := by
      rintro ⟨h1, h2⟩
      rcases hc with h | h
      · omega
      · rw [h] at h2; cases h2
    have hlab : ∃ run label, pickLabel cls c.nClusters c.cluster s.cls s.running [] = (s.cls, run, .ok label) ∧ 0 ≤ label ∧ label < c.nClusters := by
      unfold pickLabel
      split
      · have hcl : c.cluster = false := by
          rcases hc with h | h
          · omega
          · exact h
        rw [hcl]
        exact ⟨_, _, rfl, Int.emod_nonneg _ (by omega), Int.emod_lt_of_pos _ (by omega)⟩
      · exact ⟨_, _, rfl, le_refl _, by exact_mod_cast h0⟩
    obtain ⟨run, label, hp, hlo, hhi⟩ := hlab
    have hup : ∀ (t : Mav σ Λ) (rx : List Bool), t.decodeUpdate c ldpc ch label rx =
        ({ t with ldpc := (ldpc t.ldpc (.llr ch)).1 }, (ldpc t.ldpc (.llr ch)).2, .ok ()) := by
      intro t rx
      unfold Mav.decodeUpdate
      simp only
      split
      · simp [hl]
      · rw [learn_frozen c hl]
    have hpos : pyPos s.structures.length label = some label.toNat := by
      rw [h, List.length_replicate]
      unfold pyPos
      simp [hlo, hhi]
    have hpr : ({ s with running := run } : Mav σ Λ).predict c ch label = ({ s with running := run }, .ok ⟨ch, [], [], 0, none, []⟩) := by
      have hj := pyPos_lt hpos
      have : s.structures.getD label.toNat none = none := by
        rw [List.getD_eq_getElem?_getD, List.getElem?_eq_getElem hj]
        simp [h]
      unfold Mav.predict
      simp only [hpos, this]
    unfold Mav.decode
    rw [hi]
    unfold Mav.loop
    rw [if_neg hnc]
    simp only [hp]
    rw [if_neg (not_lt.2 hlo), hpr]
    simp only [hup]
    split <;> exact ⟨_, rfl⟩
  intro step hs
  have key : ∀ (words : List (List ℝ)) (s : Mav σ Λ), s.structures = List.replicate c.nClusters none →
      ∀ step ∈ (s.run c cls ldpc words).2, ∃ out, step.result = .ok out := by
    intro words
    induction words with
    | nil => intro s _ step hs; cases hs
    | cons ch words ih =>
      intro s h step hs
      rcases List.mem_cons.1 hs with rfl | hs
      · exact one s ch h
      · obtain ⟨d1, _⟩ := unused_step c hl hi cls ldpc s ch (fun x hx => by rw [h] at hx; exact (List.mem_replicate.1 hx).2)
        exact ih _ (d1.trans h) step hs
  exact key words _ rfl step hs

/-- The structure of a buffer with one heartbeat, on words of at least 17 bytes. -/
example (O : StatOps Val ℝ) (ldpc : Ldpc Unit) (words : List (List ℝ)) (hw : ∀ ch ∈ words, 136 ≤ ch.length) :
    ∃ t : Mav Unit Unit, (Mav.new 1 (BufferModel.new none) () ()).setStructures
        ⟨[0, 1], 1 / 100, 1 / 100, 2, 1 / 2, 40, 1 / 4, 1, false, true, 1, fun _ => [], O⟩ [some [(0, 0)]] = (t, .ok ()) ∧
      ∀ step ∈ (t.run ⟨[0, 1], 1 / 100, 1 / 100, 2, 1 / 2, 40, 1 / 4, 1, false, true, 1, fun _ => [], O⟩ (fun _ _ => ((), .ok 0)) ldpc words).2,
        step.result = .error .typeError := by
  obtain ⟨t, h1, h2, _⟩ := c143_fresh ⟨[0, 1], 1 / 100, 1 / 100, 2, 1 / 2, 40, 1 / 4, 1, false, true, 1, fun _ => [], O⟩ (Or.inl rfl)
    Nat.one_pos Nat.one_pos (fun (_ : Unit) _ => ((), .ok 0)) ldpc none () () [some [(0, 0)]] rfl 17 (by
      intro x hx
      rw [List.mem_singleton] at hx
      refine ⟨_, hx, by simp, ?_⟩
      intro r hr
      rw [List.mem_singleton] at hr
      subst hr
      exact ⟨msg0, by decide +kernel, by decide, by decide, by decide⟩) words hw
  exact ⟨t, h1, fun step hx => (h2 step hx).1⟩

/-- Three clusters taken in turn, no structures. -/
example (O : StatOps Val ℝ) (ldpc : Ldpc Unit) (words : List (List ℝ)) :
    ∀ step ∈ ((Mav.new 3 (BufferModel.new none) () () : Mav Unit Unit).run
      ⟨[0, 1], 1 / 100, 1 / 100, 2, 1 / 2, 40, 1 / 4, 3, false, false, 1, fun _ => [], O⟩ (fun _ _ => ((), .ok 0)) ldpc words).2,
      ∃ out, step.result = .ok out :=
  c143_unused_returns ⟨[0, 1], 1 / 100, 1 / 100, 2, 1 / 2, 40, 1 / 4, 3, false, false, 1, fun _ => [], O⟩ rfl rfl (by simp) (Or.inr rfl)
    (fun _ _ => ((), .ok 0)) ldpc _ () () words

end NR.C143

import Verif.Props.C68
import Verif.Props.C73_C74
import Verif.Props.C85
import Verif.Model.CombinedDebug
/-
C105: the calls of the combined decoders with `debug` on.
-/
namespace NR
open NR.Spec

variable {σ Λ : Type}

/-! ### The two ways to write the prediction agree -/

theorem prediction_fst (c : CombCfg) (s : Comb σ Λ) (obs : List ℝ) (label : Nat) :
    (s.prediction c obs label).1 = (s.mavlinkPrediction c obs label).1 ∧
    (s.prediction c obs label).2.map CombPred.llr = (s.mavlinkPrediction c obs label).2 := by
  unfold Comb.prediction Comb.mavlinkPrediction
  rcases s.mav.structures[label]? with _ | _ | st
  · exact ⟨rfl, rfl⟩
  · exact ⟨rfl, rfl⟩
  · simp only
    rcases hp : s.mav.model.predict c.mav.stats (.bits (hardBits obs)) st with ⟨model, e | p⟩
    · exact ⟨rfl, rfl⟩
    · simp only
      rcases h1 : fieldsWhere (fun x => 1 - c.mav.validThr < x) p.fields with e | good
      · exact ⟨rfl, rfl⟩
      · rcases h2 : fieldsWhere (fun x => x < c.mav.invalidThr) p.fields with e | bad
        · exact ⟨rfl, rfl⟩
        · simp only
          rcases h3 : c.rectify s.ent obs label p.bitProb (c.mav.factor model.modelSize c.mav.validFactor)
            (c.mav.factor model.modelSize c.mav.invalidFactor) with e | llr
          · exact ⟨rfl, rfl⟩
          · simp only
            rcases h4 : c.mav.force model obs llr st (c.forcedBits p.bitProb p.bitStd) (c.mav.factor model.modelSize c.mav.validFactor)
              with ⟨model', e | llr'⟩
            · exact ⟨rfl, rfl⟩
            · simp only
              rcases h5 : c.mav.resegment obs llr' (c.mav.factor model.modelSize c.mav.validFactor) with e | ⟨llr'', v⟩ <;>
                exact ⟨rfl, rfl⟩

/-! ### Reading fresh statistics changes nothing -/

/-- The cached statistics are up to date, or there is nothing to fit. -/
def FieldModel.Fresh {τ μ : Type} (O : StatOps τ μ) (m : FieldModel τ μ) : Prop := m.refresh O = (m, .ok ())

theorem refresh_fresh {τ μ : Type} {O : StatOps τ μ} {m m' : FieldModel τ μ} (h : m.refresh O = (m', .ok ())) : m'.Fresh O := by
  unfold FieldModel.Fresh
  unfold FieldModel.refresh at h ⊢
  split at h
  · rename_i hu
    cases h
    rw [if_pos hu]
  · rename_i hu
    unfold FieldModel.update at h ⊢
    split at h
    · rename_i h0
      cases h
      rw [if_neg hu, if_pos h0]
    · split at h
      · cases h
        simp
      · cases h

theorem read_fresh {τ μ : Type} {O : StatOps τ μ} {m : FieldModel τ μ} (h : m.Fresh O) (r : FieldModel.Read τ) :
    (m.read O r).1 = m := by
  unfold FieldModel.Fresh at h
  unfold FieldModel.read
  split
  · rfl
  · rw [h]

theorem read_makes_fresh {τ μ : Type} {O : StatOps τ μ} {m m' : FieldModel τ μ} {v : τ} {a : FieldModel.Answer μ}
    (h : m.read O (.classifyValue v) = (m', .ok a)) : m'.Fresh O := by
  simp only [FieldModel.read] at h
  split at h
  · cases h
  · rename_i m1 hr
    cases h
    exact refresh_fresh hr

theorem keys_dictSet {κ ν : Type} [DecidableEq κ] (d : List (κ × ν)) (k : κ) (v : ν) (h : (d.map Prod.fst).Nodup) :
    ((dictSet d k v).map Prod.fst).Nodup := by
  unfold dictSet
  split
  · have : (d.map fun p => if p.1 = k then (k, v) else p).map Prod.fst = d.map Prod.fst := by
      rw [List.map_map]
      apply List.map_congr_left
      intro x _
      simp only [Function.comp]
      split
      · rename_i h; exact h.symm
      · rfl
    rw [this]; exact h
  · rename_i hk
    rw [List.map_append, List.nodup_append]
    refine ⟨h, by simp, ?_⟩
    intro a ha b hb hab
    simp at hb
    subst hb
    subst hab
    exact hk ha

/-- Storing the value that is there changes nothing. -/
theorem dictSet_same {ν : Type} (d : List (String × ν)) (k : String) (v : ν) (h : (d.map Prod.fst).Nodup)
    (hl : d.lookup k = some v) : dictSet d k v = d := by
  have hmem : (k, v) ∈ d := by
    clear h
    induction d with
    | nil => cases hl
    | cons x d ih =>
      obtain ⟨a, b⟩ := x
      rw [List.lookup_cons] at hl
      split at hl
      · rename_i heq
        cases hl
        rw [beq_iff_eq] at heq
        subst heq
        exact List.mem_cons_self
      · exact List.mem_cons_of_mem _ (ih hl)
  unfold dictSet
  rw [if_pos (List.mem_map.2 ⟨_, hmem, rfl⟩)]
  conv_rhs => rw [← List.map_id d]
  apply List.map_congr_left
  rintro ⟨a, b⟩ hx
  simp only [id]
  split
  · rename_i hak
    subst hak
    rw [List.inj_on_of_nodup_map h hmem hx rfl]
  · rfl

/-- The names of the field models are distinct: they are the keys of a dict. -/
def KeysOk {μ : Type} (bm : BufferModel μ) : Prop := (bm.models.map Prod.fst).Nodup

theorem cache_keys {μ : Type} (O : StatOps Val μ) : CachePreserved O (KeysOk (μ := μ)) :=
  fun _ _ _ _ _ h => keys_dictSet _ _ _ h

/-- The models of the fields `N`, as far as there are any, are fresh. -/
def FreshAt {μ : Type} (O : StatOps Val μ) (N : List String) (bm : BufferModel μ) : Prop :=
  ∀ n ∈ N, ∀ m, bm.models.lookup n = some m → m.Fresh O

theorem cache_fresh {μ : Type} (O : StatOps Val μ) (N : List String) : CachePreserved O (FreshAt O N) := by
  intro bm name m r hl h n hn m' hm'
  simp only [lookup_dictSet] at hm'
  split at hm'
  · rename_i hnn
    subst hnn
    cases hm'
    have := h n hn m hl
    rw [read_fresh this]
    exact this
  · exact h n hn m' hm'

/-- After a prediction that returned, the models of all fields it looked at are fresh. -/
theorem predictLoop_fresh {μ : Type} (O : StatOps Val μ) (bits : List Int) (items : List (Nat × String × Val)) :
    ∀ (N : List String) (bm : BufferModel μ) (p q : BufferModel.Prediction μ), FreshAt O N bm →
      (BufferModel.predictLoop O bits bm.models p items).2 = .ok q →
      FreshAt O (N ++ items.map fun x => x.2.1) { bm with models := (BufferModel.predictLoop O bits bm.models p items).1 } := by
  induction items with
  | nil => intro N bm p q h _; simpa [BufferModel.predictLoop] using h
  | cons x items ih =>
    intro N bm p q h hok
    obtain ⟨j, name, v⟩ := x
    rw [BufferModel.predictLoop] at hok ⊢
    rw [List.map_cons, show N ++ (name :: items.map fun x => x.2.1) = (N ++ [name]) ++ items.map fun x => x.2.1 by simp]
    cases hl : bm.models.lookup name with
    | none =>
      rw [hl] at hok
      refine ih (N ++ [name]) bm p q ?_ hok
      intro n hn m hm
      rcases List.mem_append.1 hn with hn | hn
      · exact h n hn m hm
      · simp at hn; subst hn; rw [hl] at hm; cases hm
    | some m =>
      rw [hl] at hok
      have hc := cache_fresh O N bm name m (.classifyValue v) hl h
      rcases hr : m.read O (.classifyValue v) with ⟨m', a⟩
      rw [hr] at hc
      simp only [hr] at hok ⊢
      rcases a with e | a
      · cases hok
      · cases a with
        | pair pr =>
          obtain ⟨val, std⟩ := pr
          simp only at hok ⊢
          refine ih (N ++ [name]) { bm with models := dictSet bm.models name m' } _ q ?_ hok
          intro n hn m1 hm1
          rcases List.mem_append.1 hn with hn | hn
          · exact hc n hn m1 hm1
          · simp at hn
            subst hn
            simp only [lookup_dictSet, if_true] at hm1
            cases hm1
            exact read_makes_fresh hr
        | stat _ => cases hok
        | bits _ => cases hok
        | size _ => cases hok

theorem meanLoop_fresh {μ : Type} (O : StatOps Val μ) (bits : List Int) (ms : List (String × FieldModel Val μ))
    (hk : (ms.map Prod.fst).Nodup) (items : List (Nat × String × CType))
    (hf : ∀ x ∈ items, ∀ m, ms.lookup x.2.1 = some m → m.Fresh O) : ∀ (acc : List Bool),
      (BufferModel.meanLoop O bits ms acc items).1 = ms := by
  induction items with
  | nil => intro acc; rfl
  | cons x items ih =>
    intro acc
    obtain ⟨j, name, t⟩ := x
    rw [BufferModel.meanLoop]
    cases hl : ms.lookup name with
    | none => rfl
    | some m =>
      have hfr := read_fresh (hf (j, name, t) List.mem_cons_self m hl) .mean
      have hds := dictSet_same ms name m hk hl
      have ih' := ih fun x hx => hf x (List.mem_cons_of_mem _ hx)
      simp only
      rcases hr : m.read O .mean with ⟨m', a⟩
      rw [hr] at hfr
      simp only at hfr
      subst hfr
      rcases a with e | a
      · exact hds
      · cases a with
        | stat y =>
          simp only
          split
          · exact hds
          · split
            · exact hds
            · rw [hds]; exact ih' _
        | pair _ => exact hds
        | bits _ => exact hds
        | size _ => exact hds

/-- Reading means of fields whose models are fresh changes nothing. -/
theorem mean_fresh {μ : Type} (O : StatOps Val μ) (bm : BufferModel μ) (hk : KeysOk bm) (idx : List Nat) (len : Nat)
    (st : List (Nat × Nat)) (hf : FreshAt O ((fieldPlaces st).map Place.name) bm) : (bm.bitwiseModelMean O idx len st).1 = bm := by
  unfold BufferModel.bitwiseModelMean
  rcases hu : unpackStructure true len st with e | ⟨bits, names, types⟩
  · rfl
  · obtain ⟨arr, h1, _⟩ := unpackStructure_ok ((c31_returns_iff len st).1 ⟨_, hu⟩)
    rw [hu] at h1
    cases h1
    have := meanLoop_fresh O bits bm.models hk
      ((List.range ((fieldPlaces st).map Place.name).length).zip (((fieldPlaces st).map Place.name).zip ((fieldPlaces st).map Place.type)))
      (by
        rintro ⟨j, name, t⟩ hx m hm
        refine hf name ?_ m hm
        exact (List.of_mem_zip (List.of_mem_zip hx).2).1) (List.replicate (len * 8) false)
    simp only
    rcases hml : BufferModel.meanLoop O bits bm.models (List.replicate (len * 8) false)
      ((List.range ((fieldPlaces st).map Place.name).length).zip (((fieldPlaces st).map Place.name).zip ((fieldPlaces st).map Place.type)))
      with ⟨ms, a⟩
    rw [hml] at this
    simp only at this
    subst this
    rcases a with e | a <;> rfl

/-- After a prediction that returned, the models of all fields of the structure are fresh. -/
theorem predict_fresh {μ : Type} (O : StatOps Val μ) (bm bm' : BufferModel μ) (l : List Bool) (st : List (Nat × Nat))
    (p : BufferModel.Prediction μ) (h : bm.predict O (.bits l) st = (bm', .ok p)) :
    FreshAt O ((fieldPlaces st).map Place.name) bm' := by
  unfold BufferModel.predict at h
  rcases hu : unpackStructure true (l.length / 8) st with e | ⟨bits, names, types⟩
  · simp only [BufferModel.argLen, hu, bind, Except.bind] at h
    cases h
  · have hr := (c31_returns_iff _ st).1 ⟨_, hu⟩
    obtain ⟨arr, h1, _⟩ := unpackStructure_ok hr
    rw [hu] at h1
    cases h1
    have hv : unpackValues (.bits l) st = .ok ((fieldPlaces st).map fun p => unpackScalar p.type (p.bytes (bitsToBytes l))) :=
      unpackLoop_ok (inRange_mono (by simp [bitsToBytes]; omega) hr)
    simp only [BufferModel.argLen, hu, hv, bind, Except.bind] at h
    have key := predictLoop_fresh O bits ((List.range ((fieldPlaces st).map fun p => unpackScalar p.type (p.bytes (bitsToBytes l))).length).zip
      (((fieldPlaces st).map Place.name).zip ((fieldPlaces st).map fun p => unpackScalar p.type (p.bytes (bitsToBytes l)))))
      [] bm ⟨List.replicate ((fieldPlaces st).map fun p => unpackScalar p.type (p.bytes (bitsToBytes l))).length none,
        List.replicate bits.length none, List.replicate bits.length none⟩ p (fun n hn => by simp at hn) (by
          have := congrArg Prod.snd h
          exact this)
    have h2 := congrArg Prod.fst h
    simp only at h2
    rw [h2] at key
    intro n hn
    refine key n ?_
    rw [List.nil_append]
    obtain ⟨i, hi⟩ := List.mem_iff_getElem?.1 hn
    obtain ⟨hi', hin⟩ := List.getElem?_eq_some_iff.1 hi
    rw [List.mem_map]
    refine ⟨((List.range ((fieldPlaces st).map fun p => unpackScalar p.type (p.bytes (bitsToBytes l))).length).zip
      (((fieldPlaces st).map Place.name).zip ((fieldPlaces st).map fun p => unpackScalar p.type (p.bytes (bitsToBytes l)))))[i]'(by
        simp at hi' ⊢; exact hi'), List.getElem_mem _, ?_⟩
    simp at hin ⊢
    exact hin

theorem bufPredict_length {μ : Type} (O : StatOps Val μ) (bm bm' : BufferModel μ) (l : List Bool) (st : List (Nat × Nat))
    (p : BufferModel.Prediction μ) (h : bm.predict O (.bits l) st = (bm', .ok p)) : InRange (l.length / 8) st := by
  unfold BufferModel.predict at h
  rcases hu : unpackStructure true (l.length / 8) st with e | r
  · simp only [BufferModel.argLen, hu, bind, Except.bind] at h
    cases h
  · exact (c31_returns_iff _ st).1 ⟨_, hu⟩

/-- What a prediction that returned did. -/
theorem prediction_cases (c : CombCfg) (s t : Comb σ Λ) (obs : List ℝ) (label : Nat) (p : CombPred)
    (h : s.prediction c obs label = (t, .ok p)) :
    (s.mav.structures[label]? = some none ∧ t = s ∧ p.forced = none) ∨
    ∃ st model, s.mav.structures[label]? = some (some st) ∧ t = { s with mav := { s.mav with model } } ∧
      FreshAt c.mav.stats ((fieldPlaces st).map Place.name) model ∧ InRange (obs.length / 8) st ∧
      (∃ q, (s.mav.model.predict c.mav.stats (.bits (hardBits obs)) st).2 = .ok q ∧ p.forced = some (c.forcedBits q.bitProb q.bitStd)) ∧
      ∀ P, CachePreserved c.mav.stats P → P s.mav.model → P model := by
  have hpres : ∀ P, CachePreserved c.mav.stats P → P s.mav.model → P t.mav.model := by
    intro P hP h0
    obtain ⟨model, h1, h2⟩ := combPredict_pres c s obs label P hP h0
    rw [← (prediction_fst c s obs label).1, h] at h1
    simp only at h1
    rw [h1]; exact h2
  unfold Comb.prediction at h
  rcases hst : s.mav.structures[label]? with _ | _ | st
  · rw [hst] at h; cases h
  · rw [hst] at h; cases h; exact Or.inl ⟨rfl, rfl, rfl⟩
  · rw [hst] at h
    simp only at h
    rcases hp : s.mav.model.predict c.mav.stats (.bits (hardBits obs)) st with ⟨model, e | q⟩
    · rw [hp] at h; cases h
    · have hf := predict_fresh _ _ _ _ _ _ hp
      have hr := bufPredict_length _ _ _ _ _ _ hp
      rw [hardBits_length] at hr
      rw [hp] at h
      simp only at h
      rcases h1 : fieldsWhere (fun x => 1 - c.mav.validThr < x) q.fields with e | good
      · rw [h1] at h; cases h
      · rcases h2 : fieldsWhere (fun x => x < c.mav.invalidThr) q.fields with e | bad
        · rw [h1, h2] at h; cases h
        · rw [h1, h2] at h
          simp only at h
          rcases h3 : c.rectify s.ent obs label q.bitProb (c.mav.factor model.modelSize c.mav.validFactor)
            (c.mav.factor model.modelSize c.mav.invalidFactor) with e | llr
          · rw [h3] at h; cases h
          · rw [h3] at h
            simp only at h
            rcases h4 : c.mav.force model obs llr st (c.forcedBits q.bitProb q.bitStd) (c.mav.factor model.modelSize c.mav.validFactor)
              with ⟨model', e | llr'⟩
            · rw [h4] at h; cases h
            · have hf' : FreshAt c.mav.stats ((fieldPlaces st).map Place.name) model' := by
                unfold MavCfg.force at h4
                split at h4
                · cases h4; exact hf
                · have := bufMean_pres c.mav.stats _ (cache_fresh c.mav.stats ((fieldPlaces st).map Place.name)) model
                    (c.forcedBits q.bitProb q.bitStd) (obs.length / 8) st hf
                  split at h4
                  · cases h4
                  · rename_i m1 b1 hm1
                    rw [hm1] at this
                    split at h4
                    · cases h4
                    · cases h4; exact this
              rw [h4] at h
              simp only at h
              rcases h5 : c.mav.resegment obs llr' (c.mav.factor model.modelSize c.mav.validFactor) with e | ⟨llr'', v⟩
              · rw [h5] at h; cases h
              · rw [h5] at h
                cases h
                exact Or.inr ⟨st, model', rfl, rfl, hf', hr, ⟨q, by rw [hp], rfl⟩, hpres⟩

theorem pyPos_nat {n k : Nat} (h : k < n) : pyPos n (k : Int) = some k := by
  unfold pyPos
  simp [h]

/-- The analyses change nothing. -/
theorem analyse_keeps (c : CombCfg) (n : Nat) (s t : Comb σ Λ) (obs : List ℝ) (label : Nat) (p : CombPred)
    (h : s.prediction c obs label = (t, .ok p)) (hk : KeysOk s.mav.model) (errors : Option (List Nat)) :
    (t.analyse c n p errors (hardBits obs) label).1 = t := by
  unfold Comb.analyse
  cases errors with
  | none =>
    simp only
    split
    · rfl
    · split <;> rfl
  | some errors =>
    simp only
    split
    · rfl
    · have key : (t.mav.forcingAnalysis c.mav p.forced errors (hardBits obs) label).1 = t.mav := by
        unfold Mav.forcingAnalysis
        rcases prediction_cases c s t obs label p h with ⟨h1, rfl, h3⟩ | ⟨st, model, h1, rfl, h3, _, _, h5⟩
        · have hlt : label < t.mav.structures.length := (List.getElem?_eq_some_iff.1 h1).1
          simp only [pyPos_nat hlt, List.getD_eq_getElem?_getD, h1, Option.getD_some]
        · have hlt : label < s.mav.structures.length := (List.getElem?_eq_some_iff.1 h1).1
          simp only [pyPos_nat hlt, List.getD_eq_getElem?_getD, h1, Option.getD_some]
          have hm := mean_fresh c.mav.stats model (h5 _ (cache_keys _) hk) (p.forced.getD []) ((hardBits obs).length / 8) st h3
          rcases hb : model.bitwiseModelMean c.mav.stats (p.forced.getD []) ((hardBits obs).length / 8) st with ⟨m1, e | b⟩
          · rw [hb] at hm; simp only at hm; subst hm; rfl
          · rw [hb] at hm; simp only at hm; subst hm; rfl
      rcases hf : t.mav.forcingAnalysis c.mav p.forced errors (hardBits obs) label with ⟨mav, e | r⟩
      · rw [hf] at key; simp only at key; subst key; rfl
      · rw [hf] at key; simp only at key; subst key; rfl

/-- The analyses need the structure. -/
theorem analyse_structure (c : CombCfg) (n : Nat) (t : Comb σ Λ) (p : CombPred) (errors : List Nat) (rx : List Bool) (label : Nat)
    (h : (t.analyse c n p (some errors) rx label).2 = .ok ()) :
    ∃ st, t.mav.structures[label]? = some (some st) ∧ (∀ e ∈ errors, e < rx.length) := by
  unfold Comb.analyse at h
  simp only at h
  split at h
  · cases h
  · split at h
    · cases h
    · rename_i hfa
      unfold Mav.forcingAnalysis at hfa
      split at hfa
      · cases hfa
      · rename_i j hj
        have hjl := (pyPos_nonneg hj (by omega)).1
        have hlt := (pyPos_nonneg hj (by omega)).2
        have : label = j := by omega
        subst this
        split at hfa
        · cases hfa
        · rename_i st hst
          rw [List.getD_eq_getElem?_getD, List.getElem?_eq_getElem hlt, Option.getD_some] at hst
          refine ⟨st, by rw [List.getElem?_eq_getElem hlt, hst], ?_⟩
          split at hfa
          · cases hfa
          · split at hfa
            · cases hfa
            · rename_i f hff
              unfold forcingReport at hfa
              split at hfa
              · rename_i hall
                simp only [Bool.and_eq_true, List.all_eq_true, decide_eq_true_eq] at hall
                exact hall.2
              · cases hfa

/-! ### What a call with `debug` on does -/

theorem decodeUpdate_label (c : CombCfg) (ldpc : Ldpc Λ) (s : Comb σ Λ) (inp : List ℝ) (label : Nat) (rx : List Bool) :
    (s.decodeUpdate c ldpc inp label rx).state.mav.cls = s.mav.cls ∧
    (s.decodeUpdate c ldpc inp label rx).state.mav.running = s.mav.running ∧
    ∀ r, (s.decodeUpdate c ldpc inp label rx).result = .ok r → r.label = label := by
  obtain ⟨mav, o, hmav, -, h⟩ := combUpdate_cases c ldpc s inp label rx
  have hm : mav.cls = s.mav.cls ∧ mav.running = s.mav.running := by
    rw [hmav]
    unfold Mav.decodeUpdate
    rcases ldpc s.mav.ldpc (.llr inp) with ⟨l', o⟩
    simp only
    split
    · exact ⟨rfl, rfl⟩
    · unfold Mav.learn
      split
      · exact ⟨rfl, rfl⟩
      · split
        · split
          · exact ⟨rfl, rfl⟩
          · split <;> exact ⟨rfl, rfl⟩
        · split <;> exact ⟨rfl, rfl⟩
  rcases h with ⟨e, h⟩ | h
  · rw [h]; exact ⟨hm.1, hm.2, fun r hr => by cases hr⟩
  · rw [h]
    refine ⟨hm.1, hm.2, fun r hr => ?_⟩
    cases hu : (s.ent.update c.ced (c.learnedBits (if o.success then o.estimate else rx)) label).2 with
    | error e => rw [hu] at hr; cases hr
    | ok u => rw [hu] at hr; cases hr; rfl

/-- A state in which only caches of the field models, the hidden state of the classifier and the running index have changed. -/
abbrev Comb.moved (s : Comb σ Λ) (model : BufferModel ℝ) (cs : σ) (run : Int) : Comb σ Λ :=
  { s with mav := { s.mav with model := model, cls := cs, running := run } }

/-- A call with `debug` on either does what a call without it does, or raises in the analyses. If the analyses were made and did
not raise, the structure was known and the error positions lie in the word. -/
theorem debug_cases (c : CombCfg) (cls : Labeler σ) (ldpc : Ldpc Λ) (n : Nat) (s : Comb σ Λ) (ch : List ℝ)
    (errors : Option (List Nat)) (hk : KeysOk s.mav.model) :
    (s.decodeDebug c cls ldpc n ch errors = s.decode c cls ldpc ch ∧
      ((∃ (model : BufferModel ℝ) (cs : σ) (run : Int) (e : PyErr), (∀ P, CachePreserved c.mav.stats P → P s.mav.model → P model) ∧
          s.decode c cls ldpc ch = ⟨s.moved model cs run, none, [], none, .error e⟩) ∨
        (∃ (cs : σ) (run : Int) (l' : Λ) (r : CombOut), r.label < 0 ∧
          s.decode c cls ldpc ch = ⟨⟨⟨s.mav.structures, s.mav.model, run, cs, l'⟩, s.ent⟩, some ch, [], none, .ok r⟩) ∨
        ∃ (t : Comb σ Λ) (p : CombPred) (label : Nat), (∀ r, (s.decode c cls ldpc ch).result = .ok r → r.label = label) ∧
          t.mav.structures = s.mav.structures ∧ (errors = none → c.unified = true) ∧
          ∀ es, errors = some es → ((t.analyse c n p (some es) (hardBits ch) label).2 = .ok ()))) ∨
    ∃ (model : BufferModel ℝ) (e : PyErr) (label : Nat) (cs : σ) (run : Int),
      cs = (s.decode c cls ldpc ch).state.mav.cls ∧ run = (s.decode c cls ldpc ch).state.mav.running ∧ (∀ P, CachePreserved c.mav.stats P → P s.mav.model → P model) ∧
      (∃ t u p, Comb.prediction c (s.moved s.mav.model cs run) ch label = (t, .ok p) ∧
        Comb.analyse c n t p errors (hardBits ch) label = (u, .error e)) ∧
      (∀ r, (s.decode c cls ldpc ch).result = .ok r → r.label = label) ∧
      s.decodeDebug c cls ldpc n ch errors =
        ⟨s.moved model cs run, none, [], none, .error e⟩ := by
  unfold Comb.decodeDebug Comb.decode
  rcases hb : (if 1 < c.mav.nClusters ∧ c.mav.cluster = true then takeIdx (hardBits ch) c.mav.idx else .ok []) with e | bits
  · exact Or.inl ⟨rfl, Or.inl ⟨s.mav.model, s.mav.cls, s.mav.running, e, fun _ _ h => h, rfl⟩⟩
  · simp only
    rcases hpk : pickLabel cls c.mav.nClusters c.mav.cluster s.mav.cls s.mav.running bits with ⟨cs, run, e | label⟩
    · exact Or.inl ⟨rfl, Or.inl ⟨s.mav.model, cs, run, e, fun _ _ h => h, rfl⟩⟩
    · simp only
      by_cases hneg : label < 0
      · simp only [if_pos hneg]
        exact Or.inl ⟨trivial, Or.inr (Or.inl ⟨cs, run, _, _, hneg, rfl⟩)⟩
      · simp only [if_neg hneg]
        have hfst := prediction_fst c { s with mav := { s.mav with cls := cs, running := run } } ch label.toNat
        rcases hpr : Comb.prediction c { s with mav := { s.mav with cls := cs, running := run } } ch label.toNat with ⟨t, e | p⟩
        · rw [hpr] at hfst
          rcases hmp : Comb.mavlinkPrediction c { s with mav := { s.mav with cls := cs, running := run } } ch label.toNat with ⟨t', r'⟩
          rw [hmp] at hfst
          obtain ⟨h1, h2⟩ := hfst
          simp only [Except.map] at h1 h2
          subst h1; subst h2
          have hpres : ∀ P, CachePreserved c.mav.stats P → P s.mav.model → P t.mav.model ∧ t = s.moved t.mav.model cs run := by
            intro P hP h0
            obtain ⟨model, k1, k2⟩ := combPredict_pres c { s with mav := { s.mav with cls := cs, running := run } } ch label.toNat P hP h0
            rw [hmp] at k1
            simp only at k1
            rw [k1]
            exact ⟨k2, rfl⟩
          have ht := (hpres (fun _ => True) (fun _ _ _ _ _ _ => trivial) trivial).2
          exact Or.inl ⟨rfl, Or.inl ⟨t.mav.model, cs, run, e, fun P hP h0 => (hpres P hP h0).1, by rw [← ht]⟩⟩
        · rw [hpr] at hfst
          rcases hmp : Comb.mavlinkPrediction c { s with mav := { s.mav with cls := cs, running := run } } ch label.toNat with ⟨t', r'⟩
          rw [hmp] at hfst
          obtain ⟨h1, h2⟩ := hfst
          simp only [Except.map] at h1 h2
          subst h1; subst h2
          simp only
          have hkeep := analyse_keeps c n _ t ch label.toNat p hpr hk errors
          have ht : ∃ model, t = { s with mav := { s.mav with model, cls := cs, running := run } } ∧
              ∀ P, CachePreserved c.mav.stats P → P s.mav.model → P model := by
            rcases prediction_cases c _ t ch label.toNat p hpr with ⟨_, h, _⟩ | ⟨st, model, _, h, _, _, _, h5⟩
            · exact ⟨s.mav.model, h, fun _ _ h => h⟩
            · exact ⟨model, h, h5⟩
          obtain ⟨model, rfl, hP⟩ := ht
          have hae : ∀ inp, (match Comb.addEntropy c { s with mav := { s.mav with model, cls := cs, running := run } } ch p.llr label.toNat with
              | .error e => (⟨{ s with mav := { s.mav with model, cls := cs, running := run } }, none, [], none, .error e⟩ : CombStep σ Λ)
              | .ok inp => Comb.decodeUpdate c ldpc { s with mav := { s.mav with model, cls := cs, running := run } } inp label.toNat
                (hardBits ch)) = inp → inp.state.mav.cls = cs ∧ inp.state.mav.running = run ∧
                  ∀ r, inp.result = .ok r → r.label = ((label.toNat : Nat) : Int) := by
            intro x hx
            rcases ha : Comb.addEntropy c { s with mav := { s.mav with model, cls := cs, running := run } } ch p.llr label.toNat with e | inp
            · rw [ha] at hx; subst hx; exact ⟨rfl, rfl, fun r hr => by cases hr⟩
            · rw [ha] at hx; subst hx
              exact decodeUpdate_label c ldpc _ inp label.toNat (hardBits ch)
          rcases han : Comb.analyse c n { s with mav := { s.mav with model, cls := cs, running := run } } p errors (hardBits ch) label.toNat
            with ⟨u, e | _⟩
          · rw [han] at hkeep
            simp only at hkeep
            subst hkeep
            right
            exact ⟨model, e, label.toNat, cs, run, (hae _ rfl).1.symm, (hae _ rfl).2.1.symm, hP, ⟨_, _, p, hpr, han⟩, (hae _ rfl).2.2, rfl⟩
          · have hkeep' := hkeep
            rw [han] at hkeep
            simp only at hkeep
            subst hkeep
            left
            refine ⟨rfl, Or.inr (Or.inr ⟨s.moved model cs run, p, label.toNat, (hae _ rfl).2.2, rfl, fun he => ?_, fun es hes => ?_⟩)⟩
            · by_contra hu
              subst he
              unfold Comb.analyse at han
              simp only [Bool.not_eq_true] at hu
              simp only [hu, Bool.false_eq_true, if_false] at han
              split at han <;> cases han
            · subst hes
              rw [han]

/-! ### C105 -/

/-- C105. Without error positions the unified decoder makes no analysis: the call is the call without `debug`. -/
theorem c105_no_errors {c : CombCfg} (hu : c.unified = true) (cls : Labeler σ) (ldpc : Ldpc Λ) (n : Nat) (s : Comb σ Λ)
    (ch : List ℝ) (hk : KeysOk s.mav.model) :
    s.decodeDebug c cls ldpc n ch none = s.decode c cls ldpc ch := by
  rcases debug_cases c cls ldpc n s ch none hk with ⟨h, _⟩ | ⟨_, _, _, _, _, _, _, _, ⟨t, u, p, _, h⟩, _⟩
  · exact h
  · unfold Comb.analyse at h
    simp only [hu, if_true] at h
    cases h

/-- C105. A call with `debug` on that returns does exactly what the call without it does: the word handed to the LDPC decoder, the
returned values and the state of the decoder afterwards are the same. -/
theorem c105_returns (c : CombCfg) (cls : Labeler σ) (ldpc : Ldpc Λ) (n : Nat) (s : Comb σ Λ) (ch : List ℝ)
    (errors : Option (List Nat)) (hk : KeysOk s.mav.model) (r : CombOut)
    (h : (s.decodeDebug c cls ldpc n ch errors).result = .ok r) :
    s.decodeDebug c cls ldpc n ch errors = s.decode c cls ldpc ch := by
  rcases debug_cases c cls ldpc n s ch errors hk with ⟨h', _⟩ | ⟨_, _, _, _, _, _, _, _, _, _, h'⟩
  · exact h'
  · rw [h'] at h; cases h

/-- C105. A call that raises with `debug` on but returns without it has decoded and learned nothing: the word is lost, only the
classifier and the running index have moved on as in the call without `debug`. -/
theorem c105_lost (c : CombCfg) (cls : Labeler σ) (ldpc : Ldpc Λ) (n : Nat) (s : Comb σ Λ) (ch : List ℝ)
    (errors : Option (List Nat)) (hk : KeysOk s.mav.model) (e : PyErr) (r : CombOut)
    (h : (s.decodeDebug c cls ldpc n ch errors).result = .error e) (hr : (s.decode c cls ldpc ch).result = .ok r) :
    (s.decodeDebug c cls ldpc n ch errors).handed = none ∧ (s.decodeDebug c cls ldpc n ch errors).learned = none ∧
    (s.decodeDebug c cls ldpc n ch errors).state.ent = s.ent ∧
    (s.decodeDebug c cls ldpc n ch errors).state.mav.structures = s.mav.structures ∧
    (s.decodeDebug c cls ldpc n ch errors).state.mav.ldpc = s.mav.ldpc ∧
    SameContent (s.decodeDebug c cls ldpc n ch errors).state.mav.model s.mav.model ∧
    (s.decodeDebug c cls ldpc n ch errors).state.mav.cls = (s.decode c cls ldpc ch).state.mav.cls ∧
    (s.decodeDebug c cls ldpc n ch errors).state.mav.running = (s.decode c cls ldpc ch).state.mav.running := by
  rcases debug_cases c cls ldpc n s ch errors hk with ⟨h', _⟩ | ⟨model, e', label, cs, run, hcs, hrun, hP, _, _, h'⟩
  · rw [h', hr] at h; cases h
  · rw [h', ← hcs, ← hrun]
    exact ⟨rfl, rfl, rfl, rfl, rfl, hP (SameContent · s.mav.model) (cache_same _ _) (SameContent.rfl' _), rfl, rfl⟩

/-- C105. A call with `debug` on and error positions that returns with a label that is not negative: the structure of the cluster
was known before the call, and the error positions lie in the word. -/
theorem c105_needs_structure (c : CombCfg) (cls : Labeler σ) (ldpc : Ldpc Λ) (n : Nat) (s : Comb σ Λ) (ch : List ℝ)
    (errors : List Nat) (hk : KeysOk s.mav.model) (r : CombOut)
    (h : (s.decodeDebug c cls ldpc n ch (some errors)).result = .ok r) (h0 : 0 ≤ r.label) :
    (∃ (l : Nat) (st : List (Nat × Nat)), r.label = l ∧ s.mav.structures[l]? = some (some st)) ∧ ∀ e ∈ errors, e < ch.length := by
  rcases debug_cases c cls ldpc n s ch (some errors) hk with ⟨h', hx⟩ | ⟨_, _, _, _, _, _, _, _, _, _, h'⟩
  · rw [h'] at h
    rcases hx with ⟨_, _, _, _, _, hx⟩ | ⟨_, _, _, r', hn, hx⟩ | ⟨t, p, label, hl, hst, _, ha⟩
    · rw [hx] at h; cases h
    · rw [hx] at h; cases h; omega
    replace hl := hl r h
    obtain ⟨st, h1, h2⟩ := analyse_structure c n t p errors (hardBits ch) label (ha errors rfl)
    rw [hst] at h1
    rw [hardBits_length] at h2
    exact ⟨⟨label, st, hl, h1⟩, h2⟩
  · rw [h'] at h; cases h

/-- C105. Without error positions a `CombinedDecoder` with `debug` on raises, unless the label is negative. -/
theorem c105_errors_required {c : CombCfg} (hu : c.unified = false) (cls : Labeler σ) (ldpc : Ldpc Λ) (n : Nat) (s : Comb σ Λ)
    (ch : List ℝ) (hk : KeysOk s.mav.model) (r : CombOut) (h : (s.decodeDebug c cls ldpc n ch none).result = .ok r) : r.label < 0 := by
  by_contra h0
  rcases debug_cases c cls ldpc n s ch none hk with ⟨h', hx⟩ | ⟨_, _, _, _, _, _, _, _, _, _, h'⟩
  · rw [h'] at h
    rcases hx with ⟨_, _, _, _, _, hx⟩ | ⟨_, _, _, r', hn, hx⟩ | ⟨t, p, label, _, _, hn, _⟩
    · rw [hx] at h; cases h
    · rw [hx] at h; cases h; omega
    rw [hn rfl] at hu
    cases hu
  · rw [h'] at h; cases h

/-! ### Runs -/

theorem addSamples_keys {μ : Type} (O : StatOps Val μ) : ∀ (l : List (String × Val × CType)) (bm : BufferModel μ), KeysOk bm →
    KeysOk (bm.addSamples O l).1
  | [], _, h => h
  | (name, v, t) :: l, bm, h => by
    rw [BufferModel.addSamples]
    cases ha : bm.addSample O name v t.cname with
    | error e => exact h
    | ok bm' =>
      simp only
      refine addSamples_keys O l bm' ?_
      unfold BufferModel.addSample at ha
      split at ha
      · cases ha; exact keys_dictSet _ _ _ h
      · rcases hn : FieldModel.new O name t.cname bm.windowSize with e | m
        · rw [hn] at ha; cases ha
        · rw [hn] at ha; cases ha; exact keys_dictSet _ _ _ h

theorem addBuffer_keys {μ : Type} (O : StatOps Val μ) (bm : BufferModel μ) (b : BufArg) (st : List (Nat × Nat)) (h : KeysOk bm) :
    KeysOk (bm.addBuffer O b st).1 := by
  unfold BufferModel.addBuffer
  split
  · exact h
  · exact addSamples_keys O _ _ h

theorem addAll_keys {μ : Type} (O : StatOps Val μ) (as : List (BufArg × List (Nat × Nat))) : ∀ (bm : BufferModel μ), KeysOk bm →
    KeysOk (addAll O bm as) := by
  induction as with
  | nil => exact fun _ h => h
  | cons a as ih => exact fun bm h => ih _ (addBuffer_keys O bm a.1 a.2 h)

theorem new_keys {μ : Type} (w : Option Nat) : KeysOk (BufferModel.new (μ := μ) w) := List.nodup_nil

theorem learn_keys (c : MavCfg) (s : Mav σ Λ) (j : Nat) (o : LdpcOut) (rx : List Bool) (h : KeysOk s.model) :
    KeysOk (s.learn c j o rx).1.model := by
  unfold Mav.learn
  split
  · exact h
  · split
    · split
      · exact addBuffer_keys _ _ _ _ h
      · split
        · exact h
        · exact addBuffer_keys _ _ _ _ h
    · split
      · exact addBuffer_keys _ _ _ _ h
      · exact h

/-- Calls keep the names of the field models distinct. -/
theorem decode_keys (c : CombCfg) (cls : Labeler σ) (ldpc : Ldpc Λ) (s : Comb σ Λ) (ch : List ℝ) (h : KeysOk s.mav.model) :
    KeysOk (s.decode c cls ldpc ch).state.mav.model := by
  rcases comb_cases c cls ldpc s ch KeysOk (cache_keys _) h with
    ⟨model, cs, run, e, hP, h'⟩ | ⟨cs, run, label, hneg, h'⟩ | ⟨model, cs, run, inp0, inp, label, hP, hp, ha, h'⟩
  · rw [h']; exact hP
  · rw [h']; exact h
  · obtain ⟨mav, o, hmav, ho, h2⟩ := combUpdate_cases c ldpc
      { s with mav := { s.mav with model, cls := cs, running := run } } inp label (hardBits ch)
    have hm : KeysOk mav.model := by
      rw [hmav]
      unfold Mav.decodeUpdate
      rcases ldpc s.mav.ldpc (.llr inp) with ⟨l', o⟩
      simp only
      split
      · exact hP
      · exact learn_keys _ _ _ _ _ hP
    rw [h']
    rcases h2 with ⟨e, h2⟩ | h2 <;> rw [h2] <;> exact hm

theorem debug_keys (c : CombCfg) (cls : Labeler σ) (ldpc : Ldpc Λ) (n : Nat) (s : Comb σ Λ) (ch : List ℝ)
    (errors : Option (List Nat)) (h : KeysOk s.mav.model) : KeysOk (s.decodeDebug c cls ldpc n ch errors).state.mav.model := by
  rcases debug_cases c cls ldpc n s ch errors h with ⟨h', _⟩ | ⟨model, e', label, cs, run, hcs, hrun, hP, _, _, h'⟩
  · rw [h']; exact decode_keys c cls ldpc s ch h
  · rw [h']; exact hP _ (cache_keys _) h

/-- C105. If all calls of a sequence with `debug` on return, the sequence is the one without `debug`: the same returned values, the
same words handed to the LDPC decoder, the same final state. -/
theorem c105_run (c : CombCfg) (cls : Labeler σ) (ldpc : Ldpc Λ) (n : Nat) (calls : List (List ℝ × Option (List Nat))) :
    ∀ (s : Comb σ Λ), KeysOk s.mav.model → (∀ st ∈ (Comb.runDebug c cls ldpc n s calls).2, ∃ r, st.result = .ok r) →
      Comb.runDebug c cls ldpc n s calls = Comb.run c cls ldpc s (calls.map Prod.fst) := by
  induction calls with
  | nil => intro s _ _; rfl
  | cons x calls ih =>
    intro s hk hok
    obtain ⟨ch, errors⟩ := x
    obtain ⟨r, hr⟩ := hok _ (by rw [Comb.runDebug]; exact List.mem_cons_self)
    have hs := c105_returns c cls ldpc n s ch errors hk r hr
    rw [Comb.runDebug, List.map_cons, Comb.run]
    simp only
    rw [ih _ (debug_keys c cls ldpc n s ch errors hk) fun st hst => hok st (by
      rw [Comb.runDebug]; exact List.mem_cons_of_mem _ hst), hs]

/-- C105. A decoder that has to learn the structures never does with `debug` on: as long as no structure is set, every call with
error positions raises, whatever the words, the LDPC decoder and the classifier - unless the label is negative. It learns nothing. -/
theorem c105_never_learns (c : CombCfg) (cls : Labeler σ) (ldpc : Ldpc Λ) (n : Nat) (calls : List (List ℝ × Option (List Nat)))
    (hc : ∀ x ∈ calls, x.2 ≠ none ∨ c.unified = false) :
    ∀ (s : Comb σ Λ), KeysOk s.mav.model → (∀ x ∈ s.mav.structures, x = none) →
      (Comb.runDebug c cls ldpc n s calls).1.mav.structures = s.mav.structures ∧
      (Comb.runDebug c cls ldpc n s calls).1.ent = s.ent ∧
      SameContent (Comb.runDebug c cls ldpc n s calls).1.mav.model s.mav.model ∧
      ∀ st ∈ (Comb.runDebug c cls ldpc n s calls).2, st.learned = none ∧ ∀ r, st.result = .ok r → r.label < 0 := by
  induction calls with
  | nil => intro s _ _; exact ⟨rfl, rfl, SameContent.rfl' _, by simp [Comb.runDebug]⟩
  | cons x calls ih =>
    intro s hk hn
    obtain ⟨ch, errors⟩ := x
    have hneg : ∀ r, (s.decodeDebug c cls ldpc n ch errors).result = .ok r → r.label < 0 := by
      intro r hr
      cases errors with
      | none =>
        rcases hc _ List.mem_cons_self with h | h
        · exact absurd rfl h
        · exact c105_errors_required h cls ldpc n s ch hk r hr
      | some es =>
        by_contra h0
        obtain ⟨⟨l, st, _, hst⟩, _⟩ := c105_needs_structure c cls ldpc n s ch es hk r hr (by omega)
        have := hn _ (List.mem_of_getElem? hst)
        cases this
    have hstep : (s.decodeDebug c cls ldpc n ch errors).state.mav.structures = s.mav.structures ∧
        (s.decodeDebug c cls ldpc n ch errors).state.ent = s.ent ∧
        SameContent (s.decodeDebug c cls ldpc n ch errors).state.mav.model s.mav.model ∧
        (s.decodeDebug c cls ldpc n ch errors).learned = none := by
      have hsame : ∀ model : BufferModel ℝ, (∀ P, CachePreserved c.mav.stats P → P s.mav.model → P model) →
          SameContent model s.mav.model := fun model hP => hP (SameContent · s.mav.model) (cache_same _ _) (SameContent.rfl' _)
      rcases debug_cases c cls ldpc n s ch errors hk with ⟨h', hx⟩ | ⟨model, e', label, cs, run, hcs, hrun, hP, _, _, h'⟩
      · rw [h']
        rcases hx with ⟨model, _, _, _, hP, hx⟩ | ⟨_, _, _, r', _, hx⟩ | ⟨t, p, label, _, hst, hu, ha⟩
        · rw [hx]; exact ⟨rfl, rfl, hsame model hP, rfl⟩
        · rw [hx]; exact ⟨rfl, rfl, SameContent.rfl' _, rfl⟩
        · exfalso
          cases errors with
          | none =>
            rcases hc _ List.mem_cons_self with h | h
            · exact absurd rfl h
            · rw [hu rfl] at h; cases h
          | some es =>
            obtain ⟨st, h1, _⟩ := analyse_structure c n t p es (hardBits ch) label (ha es rfl)
            rw [hst] at h1
            cases hn _ (List.mem_of_getElem? h1)
      · rw [h']; exact ⟨rfl, rfl, hsame model hP, rfl⟩
    obtain ⟨i1, i2, i3, i4⟩ := ih (fun x hx => hc x (List.mem_cons_of_mem _ hx)) _ (debug_keys c cls ldpc n s ch errors hk)
      (by rw [hstep.1]; exact hn)
    rw [Comb.runDebug]
    refine ⟨i1.trans hstep.1, i2.trans hstep.2.1, i3.trans' hstep.2.2.1, ?_⟩
    intro st hst
    rcases List.mem_cons.1 hst with rfl | hst
    · exact ⟨hstep.2.2.2, hneg⟩
    · exact i4 st hst

/-! ### When the analyses do not raise -/

theorem forced_lt {c : CombCfg} {q : BufferModel.Prediction ℝ} {n : Nat} {info : Nat → Option BitSays} (h : PredSays q n info)
    (i : Nat) (hi : i ∈ c.forcedBits q.bitProb q.bitStd) : i < n := by
  unfold CombCfg.forcedBits at hi
  split at hi
  · have := (List.mem_filter.1 hi).1
    rw [h.lenStd] at this
    exact List.mem_range.1 this
  · unfold NR.forcedBits at hi
    have := (List.mem_filter.1 hi).1
    rw [h.lenProb] at this
    exact List.mem_range.1 this

theorem classifierAnalysis_ok (n : Nat) (structures : List (Option (List (Nat × Nat)))) (good bad errors : List Nat) (k label : Nat)
    (st : List (Nat × Nat)) (hst : structures[label]? = some (some st)) (hr : InRange (n / 8) st) :
    ∃ r, classifierAnalysis n structures good bad errors k label = .ok r := by
  have hlt : label < structures.length := (List.getElem?_eq_some_iff.1 hst).1
  unfold classifierAnalysis
  simp only [pyPos_nat hlt, List.getD_eq_getElem?_getD, hst, Option.getD_some]
  obtain ⟨arr, h1, _⟩ := unpackStructure_ok hr
  unfold classifierReport BufferModel.findDamaged
  simp only [h1, bind, Except.bind]
  split
  · exact ⟨_, rfl⟩
  · exact ⟨_, rfl⟩
  · exact ⟨_, rfl⟩

/-- In a state that knows its models the analyses of a word do not raise. -/
theorem analyse_ok {c : CombCfg} {s t : Comb σ Λ} {obs : List ℝ} {label : Nat} {p : CombPred} {st : List (Nat × Nat)}
    {w : Option Nat} {fitv : List Val → ℝ × ℝ} {hist : String → List Val} {mb : Place → List Bool} {len : Nat}
    (hst : s.mav.structures[label]? = some (some st)) (h : Knows c.mav.stats w fitv hist mb st len s.mav.model)
    (hl : obs.length = 8 * len) (hpr : s.prediction c obs label = (t, .ok p)) (errors : List Nat) (he : ∀ e ∈ errors, e < obs.length) :
    ∃ u, t.analyse c (8 * len) p (some errors) (hardBits obs) label = (u, .ok ()) := by
  rcases prediction_cases c s t obs label p hpr with ⟨h1, _⟩ | ⟨st', model, h1, rfl, h3, h4, ⟨q, hq, hf⟩, h5⟩
  · rw [hst] at h1; cases h1
  · rw [hst] at h1
    cases h1
    obtain ⟨q', m', hq', _, _, hs⟩ := h.predict (hardBits obs) (by rw [hardBits_length]; exact hl)
    rw [hq'] at hq
    simp only at hq
    cases hq
    have hinv := h5 (fun bm => BufInv c.mav.stats w hist bm.models) (cache_bufInv _ _ _) h.inv
    obtain ⟨r, hr, _⟩ := mean_of_inv c.mav.stats w model hist hinv len st h.range h.apart mb h.mean
      (c.forcedBits q.bitProb q.bitStd) (fun i hi => forced_lt hs i hi)
    have hlt : label < s.mav.structures.length := (List.getElem?_eq_some_iff.1 hst).1
    obtain ⟨cr, hcr⟩ := classifierAnalysis_ok (8 * len) s.mav.structures p.goodFields p.badFields errors p.nFields label st hst
      (by rw [Nat.mul_div_cancel_left _ (by decide)]; exact h.range)
    have hdiv : (hardBits obs).length / 8 = len := by rw [hardBits_length, hl]; omega
    unfold Comb.analyse Mav.forcingAnalysis
    simp only [hcr, pyPos_nat hlt, List.getD_eq_getElem?_getD, hst, Option.getD_some, hf, hdiv]
    rcases hb : model.bitwiseModelMean c.mav.stats (c.forcedBits q.bitProb q.bitStd) len st with ⟨m1, e | b⟩
    · rw [hb] at hr; cases hr
    · have hall : ((c.forcedBits q.bitProb q.bitStd).all (· < (hardBits obs).length) && errors.all (· < (hardBits obs).length)) = true := by
        simp only [Bool.and_eq_true, List.all_eq_true, decide_eq_true_eq, hardBits_length]
        exact ⟨fun i hi => hl ▸ forced_lt hs i hi, he⟩
      unfold forcingReport
      simp only [hall, if_true]
      exact ⟨_, rfl⟩

/-- Without learning, calls with `debug` on leave the structures and the contents of the field models. -/
theorem debug_frozen {c : CombCfg} (hl : c.mav.learning = false) (cls : Labeler σ) (ldpc : Ldpc Λ) (n : Nat) (w : Option Nat)
    (hist : String → List Val) (calls : List (List ℝ × Option (List Nat))) : ∀ (s : Comb σ Λ), KeysOk s.mav.model →
      BufInv c.mav.stats w hist s.mav.model.models →
      (Comb.runDebug c cls ldpc n s calls).1.mav.structures = s.mav.structures ∧
      KeysOk (Comb.runDebug c cls ldpc n s calls).1.mav.model ∧
      BufInv c.mav.stats w hist (Comb.runDebug c cls ldpc n s calls).1.mav.model.models := by
  induction calls with
  | nil => exact fun s hk h => ⟨rfl, hk, h⟩
  | cons x calls ih =>
    intro s hk h
    obtain ⟨ch, errors⟩ := x
    have step : (s.decodeDebug c cls ldpc n ch errors).state.mav.structures = s.mav.structures ∧
        BufInv c.mav.stats w hist (s.decodeDebug c cls ldpc n ch errors).state.mav.model.models := by
      rcases debug_cases c cls ldpc n s ch errors hk with ⟨h', _⟩ | ⟨model, e', label, cs, run, hcs, hrun, hP, _, _, h'⟩
      · have := comb_frozen hl cls ldpc w hist [ch] s h
        rw [h']
        exact ⟨this.1, this.2.2⟩
      · rw [h']; exact ⟨rfl, hP (fun bm => BufInv c.mav.stats w hist bm.models) (cache_bufInv _ _ _) h⟩
    obtain ⟨b1, b2, b3⟩ := ih _ (debug_keys c cls ldpc n s ch errors hk) step.2
    exact ⟨b1.trans step.1, b2, b3⟩

/-- C105. A decoder with a predefined model made from the buffers `as` and structures set by `set_buffer_structures`, after any calls
with `debug` on: if all fields of the structure of the cluster have been seen in `as`, their means can be written in their types, and
the error positions lie in the word, a call that would return without `debug` returns with it, and does the same. -/
theorem c105_predefined {c : CombCfg} {len : Nat} (hl : c.mav.learning = false) (cls : Labeler σ) (ldpc : Ldpc Λ)
    (w : Option Nat) (as : List (BufArg × List (Nat × Nat))) (has : ∀ a ∈ as, Addable a) (structures : List (Option (List (Nat × Nat))))
    (cs : σ) (ls : Λ) (s0 : Comb σ Λ)
    (hset : (Comb.new c.mav.nClusters (addAll c.mav.stats (BufferModel.new w) as) cs ls).setStructures c structures = (s0, .ok ()))
    (calls : List (List ℝ × Option (List Nat))) (s : Comb σ Λ) (hs : s = (Comb.runDebug c cls ldpc (8 * len) s0 calls).1)
    (label : Nat) (st : List (Nat × Nat)) (hst : structures[label]? = some (some st))
    (hap : NonOverlapping st) (hr : InRange len st) (obs : List ℝ) (hobs : obs.length = 8 * len)
    (hist : String → List Val) (hhist : hist = fun name => as.flatMap (takes name)) (fitv : List Val → ℝ × ℝ) (mb : Place → List Bool)
    (hfit : ∀ p ∈ fieldPlaces st, c.mav.stats.fit (windowed w (hist p.name)) = .ok (fitv (windowed w (hist p.name))))
    (hmb : ∀ p ∈ fieldPlaces st, meanBits c.mav.stats w (hist p.name) p.type = .ok (mb p) ∧ (mb p).length = 8 * width p.type)
    (errors : List Nat) (he : ∀ e ∈ errors, e < 8 * len)
    (r : CombOut) (hres : (s.decode c cls ldpc obs).result = .ok r) (hrl : r.label = label) :
    s.decodeDebug c cls ldpc (8 * len) obs (some errors) = s.decode c cls ldpc obs := by
  classical
  obtain ⟨_, _, h3⟩ := addAll_inv c.mav.stats w as
  rw [List.filter_eq_self.2 fun a ha => by simpa using has a ha, ← hhist] at h3
  have hs0 : s0 = ⟨⟨structures, addAll c.mav.stats (BufferModel.new w) as, -1, cs, ls⟩, Ced.new c.mav.nClusters () ()⟩ := by
    unfold Comb.setStructures Mav.setStructures at hset
    by_cases hne : structures.length ≠ c.mav.nClusters
    · simp only [if_pos hne] at hset
      injection hset with _ hset
      cases hset
    · simp only [if_neg hne] at hset
      injection hset with hset _
      exact hset.symm
  have hk0 : KeysOk s0.mav.model := by rw [hs0]; exact addAll_keys _ as _ (new_keys w)
  obtain ⟨k1, k2, k3⟩ := debug_frozen hl cls ldpc (8 * len) w hist calls s0 hk0 (by rw [hs0]; exact h3)
  rw [← hs] at k1 k2 k3
  have hstr : s.mav.structures[label]? = some (some st) := by rw [k1, hs0]; exact hst
  rcases debug_cases c cls ldpc (8 * len) s obs (some errors) k2 with
    ⟨h', _⟩ | ⟨model, e', label', cs', run, hcs, hrun, hP, ⟨t, u, p, hp, ha⟩, hlab, h'⟩
  · exact h'
  · exfalso
    have := hlab r hres
    have : label' = label := by omega
    subst this
    obtain ⟨u', hu'⟩ := analyse_ok (s := s.moved s.mav.model cs' run) (w := w) (fitv := fitv) (hist := hist) (mb := mb) (len := len)
      hstr ⟨hfit, k3, hr, hap, hmb⟩ hobs hp errors (by rw [hobs]; exact he)
    rw [hu'] at ha
    cases ha

-- The example of C85: a predefined model with the structure of a heartbeat, a word with two errors.
example (cls : Labeler Unit) : zeroState.decodeDebug zeroComb cls oneLdpc 136 (List.replicate 136 (-1)) (some [0, 135]) =
    zeroState.decode zeroComb cls oneLdpc (List.replicate 136 (-1)) := by
  obtain ⟨r, hr, hl⟩ := zero_returns cls
  exact c105_predefined (c := zeroComb) (len := 17) rfl cls oneLdpc none [(.bytes zeroBeat, [(0, 0)])] zero_addable [some [(0, 0)]] () ()
    zeroState rfl [] zeroState rfl 0 [(0, 0)] rfl (by simp [NonOverlapping]) zero_range _ (by rw [List.length_replicate]) _ rfl
    (fun _ => (0, 0)) (fun p => List.replicate (8 * width p.type) false) (fun _ _ => rfl) (fun p hp => ⟨zero_mean p hp, by simp⟩)
    [0, 135] (by simp) r hr (by rw [hl]; rfl)

-- An error position outside the word, and a decoder whose structures have not been set.
example (cls : Labeler Unit) (r : CombOut)
    (h : (zeroState.decodeDebug zeroComb cls oneLdpc 136 (List.replicate 136 (-1)) (some [136])).result = .ok r) : r.label < 0 := by
  by_contra h0
  have := (c105_needs_structure zeroComb cls oneLdpc 136 zeroState _ [136] (addAll_keys _ _ _ (new_keys none)) r h (by omega)).2 136
    (List.mem_singleton.2 rfl)
  rw [List.length_replicate] at this
  omega

example (O : StatOps Val ℝ) : ∀ st ∈ (Comb.runDebug (combDemo O true 3 [0, 1, 2]) clsDemo ldpcDemo 4 (Comb.new 1 (BufferModel.new none) () ())
    [([1, 2, 3, -4], some [3]), ([1, -2, 3, 4], some [])]).2, ∀ r, st.result = .ok r → r.label < 0 :=
  fun st hst => ((c105_never_learns (combDemo O true 3 [0, 1, 2]) clsDemo ldpcDemo 4 _ (by simp) _ (new_keys none)
    (by simp [Comb.new, Mav.new])).2.2.2 st hst).2

/-- C105. That `debug` does not change what is decoded is false: a new decoder without clusters returns from its first call without
`debug`, and raises with it. -/
theorem c105_transparent_false : ¬ ∀ (c : CombCfg) (s : Comb Unit Unit) (ch : List ℝ) (errors : List Nat) (r : CombOut),
    KeysOk s.mav.model → (∀ e ∈ errors, e < ch.length) → (s.decode c clsDemo ldpcDemo ch).result = .ok r →
      ∃ r', (s.decodeDebug c clsDemo ldpcDemo ch.length ch (some errors)).result = .ok r' := by
  intro hall
  obtain ⟨r, hr⟩ := combDemo_returns zeroOps (BufferModel.new none)
  obtain ⟨r', hr'⟩ := hall _ _ [1, 2, 3, -4] [3] r (new_keys none) (by simp) hr
  have hneg := ((c105_never_learns (combDemo zeroOps true 3 [0, 1, 2]) clsDemo ldpcDemo 4 [([1, 2, 3, -4], some [3])] (by simp)
    (Comb.new 1 (BufferModel.new none) () ()) (new_keys none) (by simp [Comb.new, Mav.new])).2.2.2 _ (by rw [Comb.runDebug]; exact List.mem_cons_self)).2 r' hr'
  have heq := c105_returns _ _ _ _ _ _ _ (new_keys none) r' hr'
  rw [heq, hr] at hr'
  cases hr'
  rw [combDemo_first] at hr
  have := (decodeUpdate_label _ _ _ _ _ _).2.2 r hr
  rw [this] at hneg
  exact absurd hneg (by decide)

end NR

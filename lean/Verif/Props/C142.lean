import Verif.Model.UnsizedModel
import Verif.Model.MavDecoder
import Verif.Props.C34
/-
C142: models loaded from files without a model size, such as the files of 2018 in the repository.
-/
namespace NR.C142
open NR NR.Spec Dialect

variable {μ : Type} (O : StatOps Val μ)

/-- A file written before `model_size` was saved: the same file without that entry. -/
def withoutSize : Json μ → Json μ
  | .obj l => .obj (l.filter fun e => e.1 != "model_size")
  | j => j

/-! ### loading -/

theorem lookup_filter (l : List (String × Json μ)) (k : String) (h : k ≠ "model_size") :
    (l.filter fun e => e.1 != "model_size").lookup k = l.lookup k := by
  induction l with
  | nil => rfl
  | cons e l ih =>
    obtain ⟨a, v⟩ := e
    by_cases ha : a = "model_size"
    · subst ha
      rw [List.filter_cons_of_neg (by simp), ih, List.lookup_cons]
      have : (k == "model_size") = false := by simpa using h
      rw [this]
    · rw [List.filter_cons_of_pos (by simpa using ha), List.lookup_cons, List.lookup_cons, ih]

theorem lookup_removed (l : List (String × Json μ)) : (l.filter fun e => e.1 != "model_size").lookup "model_size" = none := by
  induction l with
  | nil => rfl
  | cons e l ih =>
    obtain ⟨a, v⟩ := e
    by_cases ha : a = "model_size"
    · subst ha
      rw [List.filter_cons_of_neg (by simp), ih]
    · rw [List.filter_cons_of_pos (by simpa using ha), List.lookup_cons, ih]
      have : ("model_size" == a) = false := by simpa using fun h => ha h.symm
      rw [this]

theorem load_without {j : Json μ} {bm : BufferModel μ} (h : BufferModel.load O j = .ok bm) :
    SizedModel.load O (withoutSize j) = .ok ⟨{ bm with modelSize := 0 }, none⟩ := by
  cases j
  case obj l =>
    unfold BufferModel.load at h
    unfold SizedModel.load
    simp only [withoutSize, Json.get, bind, Except.bind, lookup_filter l _ (show "field_models" ≠ "model_size" by decide),
      lookup_filter l _ (show "buffer_description" ≠ "model_size" by decide), lookup_filter l _ (show "window_size" ≠ "model_size" by decide),
      lookup_removed] at h ⊢
    cases h1 : loadItems ((List.lookup "field_models" l).getD Json.null) with
    | error e => rw [h1] at h; cases h
    | ok items =>
      rw [h1] at h
      simp only at h ⊢
      cases h2 : List.foldlM (loadField O) [] items with
      | error e => rw [h2] at h; cases h
      | ok ms =>
        rw [h2] at h
        simp only at h ⊢
        cases h3 : loadDescription ⟨ms, none, 0, none, none⟩ ((List.lookup "buffer_description" l).getD Json.null) with
        | error e => rw [h3] at h; cases h
        | ok obj =>
          have hobj : obj.modelSize = 0 := by
            cases hd : (List.lookup "buffer_description" l).getD Json.null <;> rw [hd] at h3 <;> simp only [loadDescription] at h3
            case null => cases h3; rfl
            case arr d =>
              simp only [bind, Except.bind] at h3
              split at h3
              · cases h3
              · cases h3; rfl
            all_goals cases h3
          rw [h3] at h
          simp only at h ⊢
          cases h4 : loadOpt ((List.lookup "window_size" l).getD Json.null) with
          | error e => rw [h4] at h; cases h
          | ok w =>
            rw [h4] at h
            simp only at h ⊢
            split at h
            · cases h
            · cases h
              simp only [Option.getD_none, loadOpt]
              rw [← hobj]
  all_goals
    unfold BufferModel.load at h
    simp [Json.get, bind, Except.bind] at h

/-- C142: a model saved by any history of calls, without the entry `model_size`, is loaded with no model size but otherwise as it was: same
window, description and field names, and fields with the same type, window and samples that answer every question as before. -/
theorem c142_load (hraw : ∀ l : List Val, (∃ b, .raw b ∈ l) → ∃ e, O.fit l = .error e)
    (w : Option Nat) (as : List (BufArg × List (Nat × Nat))) (d : Option (List DescItem)) (bm bm' : BufferModel μ)
    (hbm : bm = build O w as d) (j : Json μ) (h : bm.save O = (bm', .ok j)) :
    ∃ ld, SizedModel.load O (withoutSize j) = .ok ld ∧ ld.size = none ∧ ld.model.windowSize = bm.windowSize ∧
      ld.model.description = bm.description ∧ ld.model.orderedFieldNames = bm.orderedFieldNames ∧
      (ld.model.models.map Prod.fst).Perm (bm.models.map Prod.fst) ∧
      ∀ name,
        (ld.model.models.lookup name).map (fun m => (m.name, m.fieldType, m.windowSize, m.samples)) =
          (bm.models.lookup name).map (fun m => (m.name, m.fieldType, m.windowSize, m.samples)) ∧
        ∀ r, (ld.model.models.lookup name).map (fun m => (m.read O r).2) = (bm.models.lookup name).map (fun m => (m.read O r).2) := by
  obtain ⟨ld, h1, h2, _, h4, h5, h6, _, h8⟩ := c34_roundtrip O hraw w as d bm bm' hbm j h
  exact ⟨_, load_without O h1, rfl, h2, h4, h5, h6, h8⟩

/-! ### learning -/

theorem addSample_size (bm bm' : BufferModel μ) (name : String) (v : Val) (ty : String) (n : Nat) (h : bm.addSample O name v ty = .ok bm') :
    bm'.modelSize = bm.modelSize ∧ ({ bm with modelSize := n } : BufferModel μ).addSample O name v ty = .ok { bm' with modelSize := n } := by
  unfold BufferModel.addSample at h ⊢
  simp only
  cases hl : bm.models.lookup name with
  | some m =>
    rw [hl] at h
    simp only [Except.ok.injEq] at h
    subst h
    exact ⟨rfl, rfl⟩
  | none =>
    rw [hl] at h
    simp only [bind, Except.bind] at h ⊢
    cases hf : FieldModel.new O name ty bm.windowSize with
    | error e => rw [hf] at h; cases h
    | ok m =>
      rw [hf] at h
      simp only [Except.ok.injEq] at h ⊢
      subst h
      exact ⟨rfl, rfl⟩

theorem addSample_error (bm : BufferModel μ) (name : String) (v : Val) (ty : String) (n : Nat) (e : PyErr) (h : bm.addSample O name v ty = .error e) :
    ({ bm with modelSize := n } : BufferModel μ).addSample O name v ty = .error e := by
  unfold BufferModel.addSample at h ⊢
  simp only
  cases hl : bm.models.lookup name with
  | some m => rw [hl] at h; cases h
  | none =>
    rw [hl] at h
    simp only [bind, Except.bind] at h ⊢
    cases hf : FieldModel.new O name ty bm.windowSize with
    | error e => rw [hf] at h; simpa using h
    | ok m => rw [hf] at h; cases h

theorem addSamples_size (l : List (String × Val × CType)) (bm : BufferModel μ) : (bm.addSamples O l).1.modelSize = bm.modelSize := by
  induction l generalizing bm with
  | nil => rfl
  | cons x l ih =>
    obtain ⟨name, v, t⟩ := x
    unfold BufferModel.addSamples
    cases h : bm.addSample O name v t.cname with
    | error e => rfl
    | ok bm' =>
      simp only
      rw [ih, (addSample_size O bm bm' name v t.cname 0 h).1]

theorem addSamples_resize (l : List (String × Val × CType)) (bm : BufferModel μ) (n : Nat) :
    ({ bm with modelSize := n } : BufferModel μ).addSamples O l = ({ (bm.addSamples O l).1 with modelSize := n }, (bm.addSamples O l).2) := by
  induction l generalizing bm with
  | nil => rfl
  | cons x l ih =>
    obtain ⟨name, v, t⟩ := x
    unfold BufferModel.addSamples
    cases h : bm.addSample O name v t.cname with
    | error e =>
      rw [addSample_error O bm name v t.cname n e h]
    | ok bm' =>
      rw [(addSample_size O bm bm' name v t.cname n h).2]
      exact ih bm'

theorem unpack_ok (O : StatOps Val μ) (a : BufArg × List (Nat × Nat)) :
    (Addable a ∧ ∃ r, (do
      let len ← BufferModel.argLen a.1
      let (_, names, types) ← unpackStructure false len a.2
      let fields ← unpackValues a.1 a.2
      .ok (names, fields, types) : Except PyErr (List String × List Val × List CType)) = .ok r) ∨
    (¬ Addable a ∧ ∃ e, (do
      let len ← BufferModel.argLen a.1
      let (_, names, types) ← unpackStructure false len a.2
      let fields ← unpackValues a.1 a.2
      .ok (names, fields, types) : Except PyErr (List String × List Val × List CType)) = .error e) := by
  have hs := c30_calls O none [] a
  unfold BufferModel.addBuffer at hs
  generalize (do
      let len ← BufferModel.argLen a.1
      let (_, names, types) ← unpackStructure false len a.2
      let fields ← unpackValues a.1 a.2
      .ok (names, fields, types) : Except PyErr (List String × List Val × List CType)) = x at hs ⊢
  cases x with
  | ok r =>
    obtain ⟨names, fields, types⟩ := r
    rcases hs with ⟨ha, _⟩ | ⟨_, e, he⟩
    · exact Or.inl ⟨ha, _, rfl⟩
    · exfalso
      have h1 := congrArg (fun x => x.1.modelSize) he
      simp only [addSamples_size] at h1
      simp [addAll, BufferModel.new, BufferModel.nextSize] at h1
  | error e =>
    rcases hs with ⟨_, he⟩ | ⟨hn, _⟩
    · cases he
    · exact Or.inr ⟨hn, _, rfl⟩

/-- C142: such a model never learns: whatever buffers it is given, one after the other, every call raises, a TypeError if the buffer fits its
structure, and the model stays as it was loaded. -/
theorem c142_learns_nothing (m : SizedModel μ) (hm : m.size = none) (as : List (BufArg × List (Nat × Nat))) :
    (m.addAll O as).1 = m ∧ (m.addAll O as).2.length = as.length ∧
      ∀ (i : Nat) (a : BufArg × List (Nat × Nat)), as[i]? = some a → ∃ e : PyErr, (m.addAll O as).2[i]? = some (.error e) ∧ (Addable a → e = .typeError) := by
  have step : ∀ a, ∃ e, m.addBuffer O a.1 a.2 = (m, .error e) ∧ (Addable a → e = .typeError) := by
    intro a
    unfold SizedModel.addBuffer
    rcases unpack_ok O a with ⟨_, ⟨names, fields, types⟩, hr⟩ | ⟨hn, e, hr⟩
    · rw [hr]
      simp only [hm, SizedModel.nextSize]
      exact ⟨_, rfl, fun _ => rfl⟩
    · rw [hr]
      exact ⟨_, rfl, fun ha => absurd ha hn⟩
  induction as with
  | nil => exact ⟨rfl, rfl, by simp⟩
  | cons a as ih =>
    obtain ⟨i1, i2, i3⟩ := ih
    obtain ⟨b, st⟩ := a
    obtain ⟨e, he, ht⟩ := step (b, st)
    simp only at he
    simp only [SizedModel.addAll, he]
    refine ⟨i1, by simp [i2], ?_⟩
    intro i a ha
    cases i with
    | zero =>
      simp only [List.getElem?_cons_zero, Option.some.injEq] at ha
      subst ha
      exact ⟨e, rfl, ht⟩
    | succ i => exact i3 i a (by simpa using ha)

theorem load_eq (j : Json μ) :
    BufferModel.load O j = (SizedModel.load O j).map fun m => { m.model with modelSize := m.size.getD 0 } := by
  unfold BufferModel.load SizedModel.load
  cases j
  case obj l =>
    simp only [Json.get, bind, Except.bind]
    cases loadItems ((List.lookup "field_models" l).getD Json.null) with
    | error e => rfl
    | ok items =>
      simp only
      cases List.foldlM (loadField O) [] items with
      | error e => rfl
      | ok ms =>
        simp only
        cases loadDescription ⟨ms, none, 0, none, none⟩ ((List.lookup "buffer_description" l).getD Json.null) with
        | error e => rfl
        | ok obj =>
          simp only
          cases loadOpt ((List.lookup "window_size" l).getD Json.null) with
          | error e => rfl
          | ok w =>
            simp only
            cases loadOpt ((List.lookup "model_size" l).getD Json.null) <;> rfl
  all_goals rfl

theorem load_size (l : List (String × Json μ)) (ld : SizedModel μ) (h : SizedModel.load O (.obj l) = .ok ld) :
    loadOpt ((l.lookup "model_size").getD .null) = .ok ld.size := by
  unfold SizedModel.load at h
  simp only [Json.get, bind, Except.bind] at h
  split at h
  · cases h
  · split at h
    · cases h
    · split at h
      · cases h
      · split at h
        · cases h
        · split at h
          · cases h
          · rename_i hs
            cases h
            exact hs

/-- C142: and saving it does not help: it still has no size, and neither has what is loaded from the file. -/
theorem c142_resave (m m' : SizedModel μ) (hm : m.size = none) (j : Json μ) (h : m.save O = (m', .ok j)) :
    m'.size = none ∧ ∀ ld, SizedModel.load O j = .ok ld → ld.size = none := by
  unfold SizedModel.save at h
  cases hu : updateAll O m.model.models with
  | mk ms r =>
    rw [hu] at h
    cases r with
    | error e => simp only at h; injection h with _ h; cases h
    | ok u =>
      simp only [Prod.mk.injEq, Except.ok.injEq] at h
      obtain ⟨rfl, rfl⟩ := h
      refine ⟨hm, fun ld hl => ?_⟩
      have h1 := load_size O _ ld hl
      rw [sortKeys_lookup _ (by simp)] at h1
      simp [List.lookup, hm, optJson, loadOpt] at h1
      exact h1.symm

/-! ### models with a size -/

/-- C142: the size of a loaded model is the one in the file, and `None` exactly if the file has none or `null`. -/
theorem c142_size (l : List (String × Json μ)) (ld : SizedModel μ) (h : SizedModel.load O (.obj l) = .ok ld) :
    (∀ n : Nat, l.lookup "model_size" = some (.int n) → ld.size = some n) ∧
      (ld.size = none ↔ l.lookup "model_size" = none ∨ l.lookup "model_size" = some .null) := by
  have h1 := load_size O l ld h
  refine ⟨fun n hn => ?_, ?_⟩
  · rw [hn] at h1
    simp [loadOpt] at h1
    exact h1.symm
  · cases hl : l.lookup "model_size" with
    | none => rw [hl] at h1; simp [loadOpt] at h1; simp [← h1]
    | some j => rw [hl] at h1; cases j <;> simp [loadOpt] at h1 <;> simp [← h1]

/-- C142: a file with a model size is loaded as a model of that size, and learning goes on from it as from any model of that size. -/
theorem c142_sized (j : Json μ) (ld : SizedModel μ) (n : Nat) (h : SizedModel.load O j = .ok ld) (hn : ld.size = some n) :
    BufferModel.load O j = .ok { ld.model with modelSize := n } ∧
      ∀ (b : BufArg) (st : List (Nat × Nat)),
        (ld.addBuffer O b st).2 = (({ ld.model with modelSize := n } : BufferModel μ).addBuffer O b st).2 ∧
        ∃ k, (ld.addBuffer O b st).1.size = some k ∧
          ({ (ld.addBuffer O b st).1.model with modelSize := k } : BufferModel μ) =
            (({ ld.model with modelSize := n } : BufferModel μ).addBuffer O b st).1 := by
  refine ⟨?_, fun b st => ?_⟩
  · rw [load_eq, h]
    simp only [Except.map, hn, Option.getD_some]
  · unfold SizedModel.addBuffer BufferModel.addBuffer
    generalize (do
      let len ← BufferModel.argLen b
      let (_, names, types) ← unpackStructure false len st
      let fields ← unpackValues b st
      .ok (names, fields, types) : Except PyErr (List String × List Val × List CType)) = x
    cases x with
    | error e => exact ⟨rfl, n, hn, rfl⟩
    | ok r =>
      obtain ⟨names, fields, types⟩ := r
      simp only [hn]
      have hk : SizedModel.nextSize ld.model.windowSize (some n) = .ok (BufferModel.nextSize ld.model.windowSize n) := by
        unfold SizedModel.nextSize BufferModel.nextSize
        cases ld.model.windowSize with
        | none => rfl
        | some w => simp only; split <;> rfl
      rw [hk]
      simp only
      have e := addSamples_resize O (names.zip (fields.zip types)) ld.model (BufferModel.nextSize ld.model.windowSize n)
      refine ⟨?_, _, rfl, ?_⟩
      · exact (congrArg Prod.snd e).symm
      · exact (congrArg Prod.fst e).symm

/-! ### decoding with a predefined model -/

/-- The same decoder, its model of another size. -/
def resize {σ Λ : Type} (s : Mav σ Λ) (n : Nat) : Mav σ Λ := { s with model := { s.model with modelSize := n } }

theorem predict_resize (bm : BufferModel μ) (n : Nat) (b : BufArg) (st : List (Nat × Nat)) :
    ({ bm with modelSize := n } : BufferModel μ).predict O b st = ({ (bm.predict O b st).1 with modelSize := n }, (bm.predict O b st).2) := by
  unfold BufferModel.predict
  split <;> rfl

theorem mean_resize (bm : BufferModel μ) (n : Nat) (idx : List Nat) (len : Nat) (st : List (Nat × Nat)) :
    ({ bm with modelSize := n } : BufferModel μ).bitwiseModelMean O idx len st =
      ({ (bm.bitwiseModelMean O idx len st).1 with modelSize := n }, (bm.bitwiseModelMean O idx len st).2) := by
  unfold BufferModel.bitwiseModelMean
  split
  · rfl
  · simp only
    split <;> rfl

theorem force_resize (c : MavCfg) (bm : BufferModel ℝ) (n : Nat) (obs llr : List ℝ) (st : List (Nat × Nat)) (forced : List Nat) (vf : ℝ) :
    c.force { bm with modelSize := n } obs llr st forced vf =
      ({ (c.force bm obs llr st forced vf).1 with modelSize := n }, (c.force bm obs llr st forced vf).2) := by
  unfold MavCfg.force
  split
  · rfl
  · rw [mean_resize]
    cases bm.bitwiseModelMean c.stats forced (obs.length / 8) st with
    | mk model r =>
      cases r with
      | error e => rfl
      | ok bits =>
        simp only
        cases pyMax (obs.map fun (x : ℝ) => |x|) <;> rfl

theorem mav_predict_resize {σ Λ : Type} (c : MavCfg) (hl : c.learning = false) (s : Mav σ Λ) (n : Nat) (obs : List ℝ) (label : Int) :
    (resize s n).predict c obs label = (resize (s.predict c obs label).1 n, (s.predict c obs label).2) := by
  unfold Mav.predict
  simp only [resize]
  split
  · rfl
  · split
    · rfl
    · rw [predict_resize]
      rename_i st _
      cases s.model.predict c.stats (.bits (hardBits obs)) st with
      | mk model r =>
        cases r with
        | error e => rfl
        | ok p =>
          simp only
          cases fieldsWhere (fun x => 1 - c.validThr < x) p.fields with
          | error e => rfl
          | ok good =>
            cases fieldsWhere (fun x => x < c.invalidThr) p.fields with
            | error e => rfl
            | ok bad =>
              simp only [MavCfg.factor, hl, Bool.false_eq_true, if_false]
              rw [force_resize]
              cases c.force model obs (scaleMask (scaleMask obs (above (1 - c.validThr) p.bitProb) c.validFactor) (below c.invalidThr p.bitProb) c.invalidFactor)
                st (forcedBits p.bitProb p.bitStd) c.validFactor with
              | mk model r =>
                cases r with
                | error e => rfl
                | ok llr =>
                  simp only
                  cases c.resegment obs llr c.validFactor <;> rfl

theorem update_resize {σ Λ : Type} (c : MavCfg) (hl : c.learning = false) (ldpc : Ldpc Λ) (s : Mav σ Λ) (n : Nat) (inp : List ℝ) (label : Int)
    (rx : List Bool) : (resize s n).decodeUpdate c ldpc inp label rx =
      (resize (s.decodeUpdate c ldpc inp label rx).1 n, (s.decodeUpdate c ldpc inp label rx).2) := by
  unfold Mav.decodeUpdate
  simp only [resize, Mav.learn, hl, Bool.not_false, if_true]
  split <;> rfl

theorem loop_resize {σ Λ : Type} (c : MavCfg) (hl : c.learning = false) (cls : Labeler σ) (ldpc : Ldpc Λ) (ch : List ℝ) (n : Nat) :
    ∀ (left : Nat) (s : Mav σ Λ) (ev : List MavEvent) (inp : List ℝ) (total : Nat) (last : Option MavOut),
      Mav.loop c cls ldpc ch left (resize s n) ev inp total last =
        ⟨resize (Mav.loop c cls ldpc ch left s ev inp total last).state n, (Mav.loop c cls ldpc ch left s ev inp total last).events,
          (Mav.loop c cls ldpc ch left s ev inp total last).result⟩ := by
  intro left
  induction left with
  | zero =>
    intro s ev inp total last
    cases last <;> rfl
  | succ left ih =>
    intro s ev inp total last
    unfold Mav.loop
    cases (if 1 < c.nClusters ∧ c.cluster = true then takeIdx (hardBits ch) c.idx else .ok []) with
    | error e => rfl
    | ok bits =>
      simp only
      have e1 : (resize s n).cls = s.cls := rfl
      have e2 : (resize s n).running = s.running := rfl
      rw [e1, e2]
      rcases pickLabel cls c.nClusters c.cluster s.cls s.running bits with ⟨cs, running, lab⟩
      cases lab with
      | error e => rfl
      | ok label =>
        simp only
        have e3 : ({ resize s n with cls := cs, running := running } : Mav σ Λ) = resize { s with cls := cs, running := running } n := rfl
        rw [e3]
        generalize ({ s with cls := cs, running := running } : Mav σ Λ) = s'
        split
        · rw [update_resize c hl]
          rfl
        · rw [mav_predict_resize c hl]
          cases s'.predict c inp label with
          | mk s2 r =>
            cases r with
            | error e => rfl
            | ok p =>
              simp only
              rw [update_resize c hl]
              rcases s2.decodeUpdate c ldpc p.llr label (hardBits ch) with ⟨s3, o, r⟩
              cases r with
              | error e => rfl
              | ok u =>
                simp only
                split
                · rfl
                · exact ih _ _ _ _ _

/-- C142: a MAVLink decoder handed such a model decodes with it all the same: whatever size the model is said to have, every call of a run does
the same, returns the same and hands the same words to the LDPC decoder, and only the cached statistics of the model can change. -/
theorem c142_decodes {σ Λ : Type} (c : MavCfg) (hl : c.learning = false) (cls : Labeler σ) (ldpc : Ldpc Λ) (s : Mav σ Λ) (n : Nat)
    (words : List (List ℝ)) :
    ((resize s n).run c cls ldpc words).2.map (fun x => (x.events, x.result)) = (s.run c cls ldpc words).2.map (fun x => (x.events, x.result)) ∧
      ((resize s n).run c cls ldpc words).1 = resize (s.run c cls ldpc words).1 n := by
  induction words generalizing s with
  | nil => exact ⟨rfl, rfl⟩
  | cons ch words ih =>
    have h := loop_resize c hl cls ldpc ch n c.segIterations s [] ch 0 none
    simp only [Mav.run, Mav.decode]
    rw [h]
    obtain ⟨i1, i2⟩ := ih (Mav.loop c cls ldpc ch c.segIterations s [] ch 0 none).state
    exact ⟨by simp only [List.map_cons]; rw [i1], i2⟩

/-! ### concrete cases -/

/-- A file of the 2018 shape: no `model_size`. -/
def oldFile : Json μ := .obj [("buffer_description", .null), ("field_models", .obj []), ("window_size", .int 100)]

/-- It loads, as a model of window 100 and no size. -/
example : SizedModel.load O oldFile = .ok ⟨BufferModel.new (some 100), none⟩ := rfl

/-- It is what saving a fresh model of that window gives, without the size. -/
example : ∃ bm j, (BufferModel.new (some 100) : BufferModel μ).save O = (bm, .ok j) ∧ withoutSize j = oldFile := by
  refine ⟨_, _, rfl, ?_⟩
  simp [withoutSize, oldFile, BufferModel.new, optJson, descriptionJson, sortKeys, List.mergeSort, List.MergeSort.Internal.splitInTwo,
    show ¬ "field_models" ≤ "buffer_description" by decide, show ¬ "window_size" ≤ "model_size" by decide,
    show "buffer_description" ≤ "model_size" by decide, show "field_models" ≤ "model_size" by decide]

/-- A heartbeat that any model with a size would learn makes this one raise. -/
example : ((⟨BufferModel.new (some 100), none⟩ : SizedModel μ).addAll O
    [(.bytes [254, 9, 7, 1, 1, 0, 1, 2, 3, 4, 5, 6, 7, 8, 9, 0, 0], [(0, 0)])]).2[0]? = some (.error .typeError) := by
  have ha : Addable (.bytes [254, 9, 7, 1, 1, 0, 1, 2, 3, 4, 5, 6, 7, 8, 9, 0, 0], [(0, 0)]) := by
    refine ⟨_, rfl, ?_⟩
    intro r hr
    simp at hr
    subst hr
    exact ⟨msg0, by decide +kernel, by decide, by decide, by decide⟩
  obtain ⟨e, he, ht⟩ := (c142_learns_nothing O (⟨BufferModel.new (some 100), none⟩ : SizedModel μ) rfl
    [(.bytes [254, 9, 7, 1, 1, 0, 1, 2, 3, 4, 5, 6, 7, 8, 9, 0, 0], [(0, 0)])]).2.2 0 _ rfl
  rw [he, ht ha]

/-- A file with a size loads with it. -/
example : SizedModel.load O (.obj [("field_models", .obj []), ("buffer_description", .null), ("window_size", .null), ("model_size", .int 7)]) =
    .ok ⟨BufferModel.new none, some 7⟩ := rfl

/-- A configuration of a predefined decoder. -/
example (O : StatOps Val ℝ) : ∃ c : MavCfg, c.learning = false ∧ c.segIterations = 2 ∧ c.stats = O :=
  ⟨⟨[0, 1], 1 / 100, 1 / 100, 2, 1 / 2, 40, 1 / 4, 2, true, false, 2, fun _ => [], O⟩, rfl, rfl, rfl⟩

end NR.C142

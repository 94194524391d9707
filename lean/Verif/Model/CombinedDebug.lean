import Verif.Model.Analysis
import Verif.Model.CombinedDecoder
/-
Model of the calls of the combined decoders with `debug` on, decoders/combined_decoder.py:248-283 and
decoders/combined_unified_decoder.py:278-313. The analyses are made between the two predictions and their results are dropped, so
only their exceptions and their effect on the model are visible. Error positions are non-negative integers.
-/
namespace NR

/-- What `mavlink_model_prediction` returns, as far as it is used: the modified word, the indices of the fields rated good and bad,
the number of fields, and the forced bits (`none` is the empty array of floats returned for an unknown structure). -/
structure CombPred where
  llr : List ℝ
  goodFields : List Nat
  badFields : List Nat
  nFields : Nat
  forced : Option (List Nat)

/-- `mavlink_model_prediction` with all that it returns, combined_decoder.py:134-203 and combined_unified_decoder.py:144-233. -/
noncomputable def Comb.prediction {σ Λ : Type} (c : CombCfg) (s : Comb σ Λ) (obs : List ℝ) (label : Nat) :
    Comb σ Λ × Except PyErr CombPred :=
  match s.mav.structures[label]? with
  | none => (s, .error .indexError)
  | some none => (s, .ok ⟨obs, [], [], 0, none⟩)
  | some (some st) => match s.mav.model.predict c.mav.stats (.bits (hardBits obs)) st with
    | (model, .error e) => ({ s with mav := { s.mav with model } }, .error e)
    | (model, .ok p) =>
      let s := { s with mav := { s.mav with model } }
      match fieldsWhere (fun x => 1 - c.mav.validThr < x) p.fields, fieldsWhere (fun x => x < c.mav.invalidThr) p.fields with
      | .ok good, .ok bad =>
        let vf := c.mav.factor model.modelSize c.mav.validFactor
        let ivf := c.mav.factor model.modelSize c.mav.invalidFactor
        let forced := c.forcedBits p.bitProb p.bitStd
        match c.rectify s.ent obs label p.bitProb vf ivf with
        | .error e => (s, .error e)
        | .ok llr => match c.mav.force model obs llr st forced vf with
          | (model, .error e) => ({ s with mav := { s.mav with model } }, .error e)
          | (model, .ok llr) => match c.mav.resegment obs llr vf with
            | .error e => ({ s with mav := { s.mav with model } }, .error e)
            | .ok (llr, _) => ({ s with mav := { s.mav with model } }, .ok ⟨llr, good, bad, p.fields.length, some forced⟩)
      | _, _ => (s, .error .typeError)

/-- The analyses, combined_decoder.py:271-274 and combined_unified_decoder.py:301-304. `errors` is `error_idx`; without it the
unified decoder makes no analysis, and for the other one `len(None)` raises a TypeError once the structure has been unpacked
(`np.sort(None)` raises an AxisError, which is an IndexError and swallowed by `find_damaged_fields`). `n` is the codeword length. -/
noncomputable def Comb.analyse {σ Λ : Type} (c : CombCfg) (n : Nat) (s : Comb σ Λ) (p : CombPred) (errors : Option (List Nat))
    (rx : List Bool) (label : Nat) : Comb σ Λ × Except PyErr Unit :=
  match errors with
  | none =>
    if c.unified then (s, .ok ())
    else match classifierAnalysis n s.mav.structures p.goodFields p.badFields [] p.nFields label with
      | .error e => (s, .error e)
      | .ok _ => (s, .error .typeError)
  | some errors =>
    match classifierAnalysis n s.mav.structures p.goodFields p.badFields errors p.nFields label with
    | .error e => (s, .error e)
    | .ok _ => match s.mav.forcingAnalysis c.mav p.forced errors rx label with
      | (mav, .error e) => ({ s with mav }, .error e)
      | (mav, .ok _) => ({ s with mav }, .ok ())

/-- `decode_buffer` with `debug` on, combined_decoder.py:248-283 and combined_unified_decoder.py:278-313. -/
noncomputable def Comb.decodeDebug {σ Λ : Type} (c : CombCfg) (cls : Labeler σ) (ldpc : Ldpc Λ) (n : Nat) (s : Comb σ Λ)
    (ch : List ℝ) (errors : Option (List Nat)) : CombStep σ Λ :=
  match (if 1 < c.mav.nClusters ∧ c.mav.cluster = true then takeIdx (hardBits ch) c.mav.idx else .ok []) with
  | .error e => ⟨s, none, [], none, .error e⟩
  | .ok bits =>
    let (cs, running, lab) := pickLabel cls c.mav.nClusters c.mav.cluster s.mav.cls s.mav.running bits
    let s := { s with mav := { s.mav with cls := cs, running := running } }
    match lab with
    | .error e => ⟨s, none, [], none, .error e⟩
    | .ok label =>
      if label < 0 then
        let (l', o) := ldpc s.mav.ldpc (.llr ch)
        ⟨{ s with mav := { s.mav with ldpc := l' } }, some ch, [], none,
          .ok ⟨o.estimate, o.llr, o.success, o.iterations, label⟩⟩
      else match s.prediction c ch label.toNat with
        | (s, .error e) => ⟨s, none, [], none, .error e⟩
        | (s, .ok p) => match s.analyse c n p errors (hardBits ch) label.toNat with
          | (s, .error e) => ⟨s, none, [], none, .error e⟩
          | (s, .ok _) => match s.addEntropy c ch p.llr label.toNat with
            | .error e => ⟨s, none, [], none, .error e⟩
            | .ok inp => s.decodeUpdate c ldpc inp label.toNat (hardBits ch)

/-- A sequence of calls with `debug` on: the final state and the steps. -/
noncomputable def Comb.runDebug {σ Λ : Type} (c : CombCfg) (cls : Labeler σ) (ldpc : Ldpc Λ) (n : Nat) :
    Comb σ Λ → List (List ℝ × Option (List Nat)) → Comb σ Λ × List (CombStep σ Λ)
  | s, [] => (s, [])
  | s, (ch, errors) :: rest =>
    let st := s.decodeDebug c cls ldpc n ch errors
    let (s', steps) := Comb.runDebug c cls ldpc n st.state rest
    (s', st :: steps)

end NR

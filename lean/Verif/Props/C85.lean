import Verif.Spec.Unified
import Verif.Props.C80
/-
C85: what the unified decoder hands to the LDPC decoder, bit by bit.
-/
namespace NR
open Spec

variable {σ Λ : Type}

/-! ### Parts of the prediction -/

theorem broadcast_eq {α β γ : Type} (f : α → β → γ) (a : List α) (b : List β) (h : a.length = b.length) :
    broadcast f a b = .ok (List.zipWith f a b) := by
  unfold broadcast
  rw [if_pos h]

theorem zipWithBool_getD (f : Bool → Bool → Bool) (a b : List Bool) (i : Nat) (ha : i < a.length) (hb : i < b.length) :
    (List.zipWith f a b).getD i false = f (a.getD i false) (b.getD i false) := by
  simp [List.getD_eq_getElem?_getD, ha, hb]

theorem take_getD (a : List Bool) (m i : Nat) (h : i < m) : (a.take m).getD i false = a.getD i false := by
  rw [List.getD_eq_getElem?_getD, List.getElem?_take_of_lt h, ← List.getD_eq_getElem?_getD]

theorem getD_ge (a : List Bool) (i : Nat) (h : a.length ≤ i) : a.getD i false = false := by
  rw [List.getD_eq_getElem?_getD, List.getElem?_eq_none h]; rfl

/-- The entropy model of a cluster is that of the words `data`. -/
structure EntKnows (c : CombCfg) (s : Ced Unit Unit) (label : Nat) (data : List (List Bool)) : Prop where
  held : s.datas[label]? = some data
  rows : ∀ x ∈ data, x.length = c.modelLength
  inRange : label < s.dists.length ∧ label < s.ents.length
  dists : data ≠ [] → s.dists[label]? = some ((List.range c.modelLength).map fun j =>
    (1 - likely c.bitFlip data j, likely c.bitFlip data j))
  ents : data ≠ [] → s.ents[label]? = some ((List.range c.modelLength).map fun j =>
    Real.binEntropy (likely c.bitFlip data j) / Real.log 2)
  fresh : data = [] → s.dists[label]? = some [] ∧ s.ents[label]? = some []

theorem EntKnows.size {c : CombCfg} (hm : 0 < c.modelLength) {s : Ced Unit Unit} {label : Nat} {data : List (List Bool)}
    (h : EntKnows c s label data) : (if data.flatten.length = 0 then 0 else data.length) = data.length := by
  split
  · rename_i h0
    cases data with
    | nil => rfl
    | cons x xs =>
      have := h.rows x (List.mem_cons_self ..)
      simp only [List.flatten_cons, List.length_append] at h0
      omega
  · rfl

open Classical in
/-- The rectification, bit by bit. -/
theorem rectifyUnified_ok (c : CombCfg) (hm : 0 < c.modelLength) (ent : Ced Unit Unit) (label : Nat) (data : List (List Bool))
    (h : EntKnows c ent label data) (h0 : 0 ≤ c.mav.center ∨ data ≠ []) (obs : List ℝ) (hml : c.modelLength ≤ obs.length)
    (p : BufferModel.Prediction ℝ) (info : Nat → Option BitSays) (hs : PredSays p obs.length info) (vf ivf : ℝ) :
    ∃ llr, c.rectifyUnified ent obs label p.bitProb vf ivf = .ok llr ∧ llr.length = obs.length ∧
      ∀ i < obs.length, llr.getD i 0 = match entSays c data i, info i with
        | some e, some b => if e.steady then obs.getD i 0 * (if 1 - c.mav.validThr < b.score then vf else 1) *
            (if b.score < c.mav.invalidThr ∧ ¬ (e.one ↔ obs.getD i 0 < 0) then (if c.flip then -ivf else ivf) else 1)
          else obs.getD i 0
        | _, _ => obs.getD i 0 := by
  unfold CombCfg.rectifyUnified
  obtain ⟨r1, r2⟩ := h.inRange
  by_cases hc : c.mav.center < data.length
  · have hne : data ≠ [] := by
      rcases h0 with h0 | h0
      · rintro rfl
        simp at hc
        linarith
      · exact h0
    have hents := h.ents hne
    have hdist := h.dists hne
    rw [hents, hdist, h.held]
    simp only [h.size hm]
    rw [if_pos hc]
    generalize he : ((List.range c.modelLength).map fun j => Real.binEntropy (likely c.bitFlip data j) / Real.log 2) = ents
    have hel : (structuralMask c.threshold ents).length = c.modelLength := by rw [← he]; simp [structuralMask]
    have hgl : ((above (1 - c.mav.validThr) p.bitProb).take c.modelLength).length = c.modelLength := by
      rw [List.length_take, above, List.length_map, hs.lenProb]; omega
    have hbl : ((below c.mav.invalidThr p.bitProb).take c.modelLength).length = c.modelLength := by
      rw [List.length_take, below, List.length_map, hs.lenProb]; omega
    have hhl : ((hardBits obs).take c.modelLength).length = c.modelLength := by
      rw [List.length_take, hardBits_length]; omega
    have hnl : noiseless ((List.range c.modelLength).map fun j => (1 - likely c.bitFlip data j, likely c.bitFlip data j)) =
        .ok ((List.range c.modelLength).map fun j => decide (1 / 2 < likely c.bitFlip data j)) := by
      unfold noiseless
      rw [if_neg (by
        intro hnil
        have := congrArg List.length hnil
        simp at this; omega)]
      rw [List.map_map]
      rfl
    simp only [bind, Except.bind, broadcast_eq _ _ _ (hgl.trans hel.symm), broadcast_eq _ _ _ (hbl.trans hel.symm), hnl]
    generalize hgood : List.zipWith (· && ·) ((above (1 - c.mav.validThr) p.bitProb).take c.modelLength)
      (structuralMask c.threshold ents) = good
    generalize hbad : List.zipWith (· && ·) ((below c.mav.invalidThr p.bitProb).take c.modelLength)
      (structuralMask c.threshold ents) = bad
    generalize hest : ((List.range c.modelLength).map fun j => decide (1 / 2 < likely c.bitFlip data j)) = est
    have hestl : est.length = c.modelLength := by rw [← hest]; simp
    have hgoodl : good.length = c.modelLength := by rw [← hgood, List.length_zipWith, hgl, hel]; simp
    have hbadl : bad.length = c.modelLength := by rw [← hbad, List.length_zipWith, hbl, hel]; simp
    rw [broadcast_eq _ _ _ (hestl.trans hhl.symm)]
    simp only
    generalize hdif : List.zipWith Bool.xor est ((hardBits obs).take c.modelLength) = dif
    have hdifl : dif.length = c.modelLength := by rw [← hdif, List.length_zipWith, hestl, hhl]; simp
    rw [broadcast_eq _ _ _ (hdifl.trans hbadl.symm)]
    simp only
    generalize hflip : List.zipWith (· && ·) dif bad = flipped
    have hflipl : flipped.length = c.modelLength := by rw [← hflip, List.length_zipWith, hdifl, hbadl]; simp
    have s1 : scaleMaskChecked obs good vf = .ok (scaleMask obs good vf) := by
      unfold scaleMaskChecked; rw [if_neg (by omega)]
    rw [s1]
    simp only
    have sl : (scaleMask obs good vf).length = obs.length := by simp [scaleMask]
    have s2 : scaleMaskChecked (scaleMask obs good vf) flipped (ivf * if c.flip then -1 else 1) =
        .ok (scaleMask (scaleMask obs good vf) flipped (ivf * if c.flip then -1 else 1)) := by
      unfold scaleMaskChecked; rw [if_neg (by omega)]
    refine ⟨_, s2, by simp [scaleMask], ?_⟩
    intro i hi
    rw [(scaleMask_get _ _ _ i (by omega)).2, (scaleMask_get _ _ _ i hi).2]
    have hfl : (ivf * if c.flip then -1 else 1) = if c.flip then -ivf else ivf := by cases c.flip <;> simp
    rw [hfl]
    by_cases him : i < c.modelLength
    · have hent : entSays c data i = some ⟨Real.binEntropy (likely c.bitFlip data i) / Real.log 2 < c.threshold,
          1 / 2 < likely c.bitFlip data i⟩ := by unfold entSays; rw [if_pos ⟨him, hc⟩]
      have hst : (structuralMask c.threshold ents).getD i false =
          decide (Real.binEntropy (likely c.bitFlip data i) / Real.log 2 < c.threshold) := by
        rw [← he]
        simp [structuralMask, List.getD_eq_getElem?_getD, him]
      have hes : est.getD i false = decide (1 / 2 < likely c.bitFlip data i) := by
        rw [← hest]
        simp [List.getD_eq_getElem?_getD, him]
      have hhb : (hardBits obs).getD i false = decide (obs.getD i 0 < 0) := by
        unfold hardBits
        simp [List.getD_eq_getElem?_getD, hi]
      have g1 : good.getD i false = ((above (1 - c.mav.validThr) p.bitProb).getD i false &&
          decide (Real.binEntropy (likely c.bitFlip data i) / Real.log 2 < c.threshold)) := by
        rw [← hgood, zipWithBool_getD _ _ _ _ (by omega) (by omega), take_getD _ _ _ him, hst]
      have g2 : flipped.getD i false = ((decide (1 / 2 < likely c.bitFlip data i) ^^ decide (obs.getD i 0 < 0)) &&
          ((below c.mav.invalidThr p.bitProb).getD i false &&
          decide (Real.binEntropy (likely c.bitFlip data i) / Real.log 2 < c.threshold))) := by
        rw [← hflip, zipWithBool_getD _ _ _ _ (by omega) (by omega), ← hdif, zipWithBool_getD _ _ _ _ (by omega) (by omega), hes,
          take_getD _ _ _ him, hhb, ← hbad, zipWithBool_getD _ _ _ _ (by omega) (by omega), take_getD _ _ _ him, hst]
      have hab := hs.above (1 - c.mav.validThr) i hi
      have hbe := hs.below c.mav.invalidThr i hi
      rw [hent, g1, g2]
      generalize (above (1 - c.mav.validThr) p.bitProb).getD i false = A at *
      generalize (below c.mav.invalidThr p.bitProb).getD i false = B at *
      cases hinf : info i with
      | none =>
        rw [hinf] at hab hbe
        have a0 : A = false := by
          cases A with
          | false => rfl
          | true => obtain ⟨b, hb, _⟩ := hab.1 rfl; cases hb
        have b0 : B = false := by
          cases B with
          | false => rfl
          | true => obtain ⟨b, hb, _⟩ := hbe.1 rfl; cases hb
        simp [a0, b0]
      | some b =>
        rw [hinf] at hab hbe
        simp only [Option.some.injEq, exists_eq_left'] at hab hbe
        by_cases hS : Real.binEntropy (likely c.bitFlip data i) / Real.log 2 < c.threshold
        · simp only [hS, decide_true, Bool.and_true, if_true, Bool.and_eq_true]
          congr 1
          · congr 1
            exact if_congr hab rfl rfl
          · refine if_congr ?_ rfl rfl
            rw [hbe]
            by_cases hO : 1 / 2 < likely c.bitFlip data i <;> by_cases hN : obs.getD i 0 < 0 <;> simp only [hO, hN] <;> simp
        · simp [hS]
    · have hent : entSays c data i = none := by unfold entSays; rw [if_neg fun hh => him hh.1]
      rw [hent, getD_ge good i (by omega), getD_ge flipped i (by omega)]
      simp
  · have hent : ∀ i, entSays c data i = none := fun i => by unfold entSays; rw [if_neg fun hh => hc hh.2]
    rw [List.getElem?_eq_getElem r1, List.getElem?_eq_getElem r2, h.held]
    simp only [h.size hm]
    rw [if_neg hc]
    exact ⟨obs, rfl, rfl, fun i _ => by rw [hent i]⟩

theorem PredSays.forcedUnified {c : CombCfg} (hu : c.unified = true) {p : BufferModel.Prediction ℝ} {n : Nat}
    {info : Nat → Option BitSays} (h : PredSays p n info) (i : Nat) :
    i ∈ c.forcedBits p.bitProb p.bitStd ↔ i < n ∧ ∃ b, info i = some b ∧ b.Forced c.mav.learning := by
  unfold CombCfg.forcedBits
  rw [hu]
  cases hl : c.mav.learning with
  | true =>
    simp only [Bool.not_true, Bool.and_false, Bool.false_eq_true, if_false]
    rw [h.forced]
    simp [BitSays.Forced, BitSays.Wrong]
  | false =>
    simp only [Bool.not_false, Bool.and_true, if_true]
    rw [List.mem_filter, List.mem_range, h.lenStd]
    refine and_congr_right fun hi => ?_
    rw [List.getD_eq_getElem?_getD, h.std i hi]
    cases info i with
    | none => simp
    | some b => simp [BitSays.Forced]

/-- The prediction in any state that knows its models. -/
theorem unified_prediction (c : CombCfg) (hu : c.unified = true) (hm : 0 < c.modelLength)
    (hinfo : ∀ w, 8 * (c.mav.infoBytes w).length ≤ w.length) (s : Comb σ Λ) (label : Nat) (st : List (Nat × Nat))
    (hst : s.mav.structures[label]? = some (some st)) {w : Option Nat} {fitv : List Val → ℝ × ℝ} {hist : String → List Val}
    {mb : Place → List Bool} {len : Nat} (h : Knows c.mav.stats w fitv hist mb st len s.mav.model) (data : List (List Bool))
    (he : EntKnows c s.ent label data) (h0 : 0 ≤ c.mav.center ∨ data ≠ []) (obs : List ℝ) (hl : obs.length = 8 * len)
    (hml : c.modelLength ≤ obs.length) :
    ∃ peak, IsPeak obs peak ∧ maxAbs obs = .ok peak ∧ (s.mavlinkPrediction c obs label).2 = .ok (unifiedWord c s.mav.model.modelSize (entSays c data)
      (bitSays c.mav.stats w fitv hist mb st (bitsToBytes (hardBits obs))) peak obs) := by
  obtain ⟨p, m', hpr, hk, hsz, hs⟩ := h.predict (hardBits obs) (by rw [hardBits_length]; exact hl)
  obtain ⟨good, hgood⟩ := fieldsWhere_ok (fun x => 1 - c.mav.validThr < x) p.fields hs.fields
  obtain ⟨bad, hbad⟩ := fieldsWhere_ok (fun x => x < c.mav.invalidThr) p.fields hs.fields
  obtain ⟨peak, hmx, hpk⟩ := maxAbs_peak (w := obs) (by intro h0; rw [h0] at hml; simp at hml; omega)
  have hw : ∀ f, c.mav.factor m'.modelSize f = weighted c.mav.learning s.mav.model.modelSize c.mav.center c.mav.slope f := by
    intro f
    rw [hsz]
    rfl
  rw [← hl] at hs
  generalize hinf : bitSays c.mav.stats w fitv hist mb st (bitsToBytes (hardBits obs)) = info at *
  generalize hvf : weighted c.mav.learning s.mav.model.modelSize c.mav.center c.mav.slope c.mav.validFactor = vf at *
  generalize hivf : weighted c.mav.learning s.mav.model.modelSize c.mav.center c.mav.slope c.mav.invalidFactor = ivf at *
  obtain ⟨llr, hll, hlll, hlb⟩ := rectifyUnified_ok c hm s.ent label data he h0 obs hml p info hs vf ivf
  have hnd : (c.forcedBits p.bitProb p.bitStd).Nodup := by
    unfold CombCfg.forcedBits
    split
    · exact List.Nodup.filter _ List.nodup_range
    · exact List.Nodup.filter _ List.nodup_range
  obtain ⟨m'', out, hfo, hol, ho1, ho2⟩ := hk.force obs llr hl hlll (bitsToBytes (hardBits obs))
    (c.forcedBits p.bitProb p.bitStd) hnd (by
      intro i hi
      obtain ⟨h1, b, h2, _⟩ := (hs.forcedUnified hu i).1 hi
      exact ⟨by omega, b, by rw [hinf]; exact h2⟩) vf peak (Or.inl hmx)
  rw [hinf] at ho2
  have hbit : ∀ i < obs.length, out.getD i 0 =
      unifiedBit c.mav.learning c.flip c.mav.validThr c.mav.invalidThr vf ivf peak (obs.getD i 0) (entSays c data i) (info i) := by
    intro i hi
    by_cases hf : i ∈ c.forcedBits p.bitProb p.bitStd
    · obtain ⟨_, b, hb, hwr⟩ := (hs.forcedUnified hu i).1 hf
      rw [ho2 i hf b hb, hb]
      simp only [unifiedBit]
      rw [if_pos hwr]
    · rw [ho1 i hf, hlb i hi]
      cases hi' : info i with
      | none =>
        cases entSays c data i <;> rfl
      | some b =>
        have hwr : ¬ b.Forced c.mav.learning := fun hwr => hf ((hs.forcedUnified hu i).2 ⟨hi, b, hi', hwr⟩)
        simp only [unifiedBit]
        rw [if_neg hwr]
        cases entSays c data i <;> rfl
  have hrect : (List.range obs.length).map (fun i => unifiedBit c.mav.learning c.flip c.mav.validThr c.mav.invalidThr vf ivf peak
      (obs.getD i 0) (entSays c data i) (info i)) = out := by
    apply List.ext_getElem
    · simp [hol]
    · intro i h1 h2
      have := hbit i (by rw [hol] at h2; exact h2)
      rw [List.getD_eq_getElem?_getD, List.getElem?_eq_getElem h2, Option.getD_some] at this
      rw [this]
      simp
  obtain ⟨fin, v, hre, hfl, hfb⟩ := resegment_ok c.mav hinfo obs out hol vf
  have hfin : fin = unifiedWord c s.mav.model.modelSize (entSays c data) info peak obs := by
    unfold unifiedWord
    simp only [hvf, hivf, hrect]
    apply List.ext_getElem?
    intro i
    by_cases hi : i < obs.length
    · rw [hfb i hi, hbit i hi]
      simp [hi]
    · rw [List.getElem?_eq_none (by rw [hfl]; omega), List.getElem?_eq_none (by simp; omega)]
  refine ⟨peak, hpk, hmx, ?_⟩
  rw [← hfin]
  unfold Comb.mavlinkPrediction
  have hrc : c.rectify s.ent obs label p.bitProb vf ivf = .ok llr := by
    unfold CombCfg.rectify
    rw [hu, if_pos rfl, hll]
  simp only [hst, hpr, hgood, hbad, hw, hvf, hivf, hrc, hfo, hre]

/-! ### The entropy models of a run -/

theorem keep_ne {window : Option Nat} (hw : window ≠ some 0) (h : List (List Bool)) (b : List Bool) : keep window (h ++ [b]) ≠ [] := by
  intro h0
  have hl := congrArg List.length h0
  cases window with
  | none => simp [keep] at hl
  | some k =>
    have : k ≠ 0 := fun hk => hw (by rw [hk])
    simp only [keep, lastN, List.length_drop, List.length_append, List.length_cons, List.length_nil] at hl
    omega

theorem entKnows_step {c : CombCfg} {n : Nat} (hf : c.Fits n) (hm : 0 < c.modelLength) (hw : c.window ≠ some 0) (cls : Labeler σ)
    (ldpc : Ldpc Λ) (hl : ∀ l i, (ldpc l i).2.estimate.length = n) (s : Comb σ Λ) (ch : List ℝ) (hch : ch.length = n) (l : Nat)
    (h : List (List Bool)) (hlen : ∀ x ∈ h, x.length = c.modelLength) (hs : EntKnows c s.ent l (keep c.window h)) (r : CombOut)
    (hr : (s.decode c cls ldpc ch).result = .ok r) :
    EntKnows c (s.decode c cls ldpc ch).state.ent l (keep c.window (h ++ combLearnedBy l [s.decode c cls ldpc ch])) ∧
      ∀ x ∈ h ++ combLearnedBy l [s.decode c cls ldpc ch], x.length = c.modelLength := by
  have hr' := hr
  rcases comb_ent_cases c cls ldpc s ch with ⟨h1, h2, _⟩ | ⟨label, o, inp, lst, ho, _, d1, d2, d3, hlearn, hst, hres⟩
  · have : combLearnedBy l [s.decode c cls ldpc ch] = [] := by simp [combLearnedBy, h1]
    rw [this, List.append_nil, h2]
    exact ⟨hs, hlen⟩
  · have hbl := (learnedBits_fit hf (w := if o.success then o.estimate else hardBits ch) (by
      split
      · rw [ho]; exact hl _ _
      · simp [hardBits, hch])).1
    generalize hbits : c.learnedBits (if o.success then o.estimate else hardBits ch) = bits at *
    obtain ⟨_, _, _, u4, u5, u6, u7⟩ := update_other c.ced s.ent bits label
    by_cases hlab : label = l
    · subst hlab
      have hcl : combLearnedBy label [s.decode c cls ldpc ch] = [bits] := by simp [combLearnedBy, hlearn]
      rw [hcl]
      have hlab : r.label = label := by
        rw [hres] at hr
        cases hu : (s.ent.update c.ced bits label).2 with
        | error e => rw [hu] at hr; cases hr
        | ok u => rw [hu] at hr; cases hr; rfl
      obtain ⟨data, e1, e2, e3, e4⟩ := c68_distribution hm hw cls ldpc s ch r hr' (by omega)
      rw [hlab, Int.toNat_natCast] at e1 e3 e4
      have hdat : data = keep c.window (h ++ [bits]) := by
        have := update_data (c := c.ced) rfl s.ent hbl hs.held
        rw [← hst, e1] at this
        injection this with this
        rw [this]
        exact growData_keep hm _ _ _ hlen
      rw [hdat] at e1 e3 e4
      have hlen' : ∀ x ∈ h ++ [bits], x.length = c.modelLength := by
        intro x hx
        rcases List.mem_append.1 hx with hx | hx
        · exact hlen x hx
        · simp only [List.mem_singleton] at hx
          rw [hx]; exact hbl
      refine ⟨⟨e1, fun x hx => hlen' x ?_, by rw [hst, u6, u7]; exact ⟨d2, d3⟩, fun _ => e3, fun _ => e4,
        fun hnil => absurd hnil (keep_ne hw _ _)⟩, hlen'⟩
      revert hx
      cases c.window with
      | none => exact fun h => h
      | some k => exact fun h => List.mem_of_mem_drop h
    · have hcl : combLearnedBy l [s.decode c cls ldpc ch] = [] := by simp [combLearnedBy, hlearn, hlab]
      rw [hcl, List.append_nil, hst]
      obtain ⟨v1, v2, v3⟩ := u4 l (fun hh => hlab hh.symm)
      exact ⟨⟨by rw [v1]; exact hs.held, hs.rows, by rw [u6, u7]; exact hs.inRange, fun hne => by rw [v2]; exact hs.dists hne,
        fun hne => by rw [v3]; exact hs.ents hne, fun hnil => by rw [v2, v3]; exact hs.fresh hnil⟩, hlen⟩

/-- After calls that all returned, the entropy model of each cluster is that of the window of the vectors given to it. -/
theorem entKnows_run {c : CombCfg} {n : Nat} (hf : c.Fits n) (hm : 0 < c.modelLength) (hw : c.window ≠ some 0) (cls : Labeler σ)
    (ldpc : Ldpc Λ) (hl : ∀ l i, (ldpc l i).2.estimate.length = n) (words : List (List ℝ)) (hwords : ∀ ch ∈ words, ch.length = n)
    (l : Nat) (s : Comb σ Λ) (h : List (List Bool)) (hlen : ∀ x ∈ h, x.length = c.modelLength)
    (hs : EntKnows c s.ent l (keep c.window h)) (hok : ∀ st ∈ (Comb.run c cls ldpc s words).2, ∃ r, st.result = .ok r) :
    EntKnows c (Comb.run c cls ldpc s words).1.ent l (keep c.window (h ++ combLearnedBy l (Comb.run c cls ldpc s words).2)) := by
  induction words generalizing s h with
  | nil => simpa [Comb.run, combLearnedBy] using hs
  | cons ch rest ih =>
    obtain ⟨r, hr⟩ := hok (s.decode c cls ldpc ch) (by simp [Comb.run])
    obtain ⟨k1, k2⟩ := entKnows_step hf hm hw cls ldpc hl s ch (hwords ch (by simp)) l h hlen hs r hr
    have := ih (fun x hx => hwords x (List.mem_cons_of_mem _ hx)) _ _ k2 k1 (fun st hst => hok st (by
      simp only [Comb.run, List.mem_cons]
      exact Or.inr hst))
    rw [List.append_assoc] at this
    have e : combLearnedBy l (Comb.run c cls ldpc s (ch :: rest)).2 =
        combLearnedBy l [s.decode c cls ldpc ch] ++ combLearnedBy l (Comb.run c cls ldpc (s.decode c cls ldpc ch).state rest).2 := by
      simp only [Comb.run, combLearnedBy, ← List.filterMap_append, List.singleton_append]
    rw [e]
    exact this

theorem entKnows_new (c : CombCfg) (l : Nat) (hl : l < c.mav.nClusters) (model : BufferModel ℝ) (cs : σ) (ls : Λ) :
    EntKnows c (Comb.new c.mav.nClusters model cs ls).ent l (keep c.window []) := by
  have hk : keep c.window ([] : List (List Bool)) = [] := by cases c.window <;> simp [keep, lastN]
  rw [hk]
  refine ⟨?_, by simp, ?_, fun h => absurd rfl h, fun h => absurd rfl h, fun _ => ?_⟩
  · rw [Comb.new, Ced.new, List.getElem?_replicate_of_lt hl]
  · simp [Comb.new, Ced.new, hl]
  · simp [Comb.new, Ced.new, hl]

/-! ### The word of one call -/

theorem peak_unique {w : List ℝ} {a b : ℝ} (ha : IsPeak w a) (hb : IsPeak w b) : a = b := by
  obtain ⟨⟨v, hv, e1⟩, h1⟩ := ha
  obtain ⟨⟨u, hu, e2⟩, h2⟩ := hb
  exact le_antisymm (e1 ▸ h2 v hv) (e2 ▸ h1 u hu)

/-- Without unification the field models' part is that of `MavlinkDecoder`. -/
theorem plain_prediction (c : CombCfg) (hu : c.unified = false) (s : Comb σ Λ) (obs : List ℝ) (label : Nat) :
    (s.mavlinkPrediction c obs label).2 = (s.mav.predict c.mav obs label).2.map MavPred.llr := by
  unfold Comb.mavlinkPrediction Mav.predict
  by_cases hlt : label < s.mav.structures.length
  · have hp : pyPos s.mav.structures.length (label : Int) = some label := by
      unfold pyPos
      rw [if_pos (by omega), if_pos (by omega)]
      simp
    rw [hp, List.getElem?_eq_getElem hlt]
    simp only [List.getD_eq_getElem?_getD, List.getElem?_eq_getElem hlt, Option.getD_some]
    cases s.mav.structures[label] with
    | none => rfl
    | some st =>
      simp only
      rcases s.mav.model.predict c.mav.stats (.bits (hardBits obs)) st with ⟨m, e | p⟩
      · rfl
      · simp only
        have hf : c.forcedBits p.bitProb p.bitStd = forcedBits p.bitProb p.bitStd := by
          unfold CombCfg.forcedBits; rw [hu]; simp
        have hr : ∀ vf ivf, c.rectify s.ent obs label p.bitProb vf ivf = .ok (scaleMask (scaleMask obs (above (1 - c.mav.validThr) p.bitProb) vf) (below c.mav.invalidThr p.bitProb) ivf) := by
          intro vf ivf
          unfold CombCfg.rectify; rw [hu]; simp
        rw [hf]
        cases fieldsWhere (fun x => 1 - c.mav.validThr < x) p.fields with
        | error e => rfl
        | ok g =>
          cases fieldsWhere (fun x => x < c.mav.invalidThr) p.fields with
          | error e => rfl
          | ok b =>
            simp only [hr]
            rcases c.mav.force m obs (scaleMask (scaleMask obs (above (1 - c.mav.validThr) p.bitProb)
              (c.mav.factor m.modelSize c.mav.validFactor)) (below c.mav.invalidThr p.bitProb)
              (c.mav.factor m.modelSize c.mav.invalidFactor)) st (forcedBits p.bitProb p.bitStd)
              (c.mav.factor m.modelSize c.mav.validFactor) with ⟨m', e | llr⟩
            · rfl
            · simp only
              rcases c.mav.resegment obs llr (c.mav.factor m.modelSize c.mav.validFactor) with e | ⟨llr', v⟩
              · rfl
              · rfl
  · have hp : pyPos s.mav.structures.length (label : Int) = none := by
      unfold pyPos
      rw [if_pos (by omega), if_neg (by omega)]
    rw [hp, List.getElem?_eq_none (by omega)]
    rfl

/-- The field models' part of either decoder, in any state that knows its models. -/
theorem model_prediction (c : CombCfg) (hm : 0 < c.modelLength)
    (hinfo : ∀ w, 8 * (c.mav.infoBytes w).length ≤ w.length) (s : Comb σ Λ) (label : Nat) (st : List (Nat × Nat))
    (hst : s.mav.structures[label]? = some (some st)) {w : Option Nat} {fitv : List Val → ℝ × ℝ} {hist : String → List Val}
    {mb : Place → List Bool} {len : Nat} (h : Knows c.mav.stats w fitv hist mb st len s.mav.model) (data : List (List Bool))
    (he : EntKnows c s.ent label data) (h0 : 0 ≤ c.mav.center ∨ data ≠ []) (obs : List ℝ) (hl : obs.length = 8 * len)
    (hml : c.modelLength ≤ obs.length) :
    ∃ peak, IsPeak obs peak ∧ maxAbs obs = .ok peak ∧ (s.mavlinkPrediction c obs label).2 = .ok (modelWord c s.mav.model.modelSize data
      (bitSays c.mav.stats w fitv hist mb st (bitsToBytes (hardBits obs))) peak obs) := by
  unfold modelWord
  cases hu : c.unified with
  | true =>
    simp only [if_true]
    exact unified_prediction c hu hm hinfo s label st hst h data he h0 obs hl hml
  | false =>
    simp only [Bool.false_eq_true, if_false]
    obtain ⟨out, peak, h1, h2, h3⟩ := predict_rectified c.mav hinfo s.mav label st hst h obs hl (by omega)
    obtain ⟨peak', hmx, hpk⟩ := maxAbs_peak (w := obs) (by intro h0; rw [h0] at hml; simp at hml; omega)
    refine ⟨peak, h2, by rw [hmx, peak_unique hpk h2], ?_⟩
    rw [plain_prediction c hu, h1, ← h3]
    rfl

theorem modelWord_length (c : CombCfg) (size : Nat) (data : List (List Bool)) (info : Nat → Option BitSays) (peak : ℝ)
    (obs : List ℝ) : (modelWord c size data info peak obs).length = obs.length := by
  unfold modelWord
  split
  · simp [unifiedWord]
  · simp [handedWord]

/-- The entropy model's part. -/
theorem entropy_part (c : CombCfg) (hm : 0 < c.modelLength) (s : Comb σ Λ) (label : Nat) (data : List (List Bool))
    (he : EntKnows c s.ent label data) (hnd : c.mav.idx.Nodup) (hi : c.mav.idx.length = c.modelLength) (ch inp : List ℝ)
    (hlt : ∀ i ∈ c.mav.idx, i < inp.length) (peak : ℝ) (hpk : maxAbs ch = .ok peak) :
    s.addEntropy c ch inp label = .ok ((List.range inp.length).map fun i => inp.getD i 0 +
      if i ∈ c.mav.idx then entAdd c data peak (c.mav.idx.idxOf i) else 0) := by
  classical
  by_cases hnil : data = []
  · obtain ⟨h1, h2⟩ := he.fresh hnil
    have h3 := he.held
    rw [hnil] at h3
    rw [addEntropy_empty h2 h1 h3]
    congr 1
    apply List.ext_getElem
    · simp
    · intro i a b
      simp [entAdd, hnil, List.getD_eq_getElem?_getD, a]
  · obtain ⟨w, e1, e2, e3, e4⟩ := c68_entropy s hnd hi (he.ents hnil) (he.dists hnil) he.held (by simp) (by simp)
      (fun x hx hx0 => by have := he.rows x hx; rw [hx0] at this; simp at this; omega) ch inp hlt hpk
    rw [e1]
    congr 1
    have hlow : ∀ k < c.modelLength, (LowAt c.threshold ((List.range c.modelLength).map fun j =>
        Real.binEntropy (likely c.bitFlip data j) / Real.log 2) k ↔ Steady c data k) := by
      intro k hk
      simp [LowAt, hk, Steady]
    apply List.ext_getElem
    · simp [e2]
    · intro i a b
      have hwi : w[i] = w.getD i 0 := by simp [List.getD_eq_getElem?_getD, a]
      rw [hwi]
      simp only [List.getElem_map, List.getElem_range]
      by_cases hmem : i ∈ c.mav.idx
      · rw [if_pos hmem]
        have hk := List.idxOf_lt_length_of_mem hmem
        have := e4 (c.mav.idx.idxOf i) hk
        rw [List.getElem_idxOf hk] at this
        rw [this]
        congr 1
        unfold entAdd
        generalize hkk : c.mav.idx.idxOf i = k at *
        have hdk : ((List.range c.modelLength).map fun j => (1 - likely c.bitFlip data j, likely c.bitFlip data j)).getD k (0, 0) =
            (1 - likely c.bitFlip data k, likely c.bitFlip data k) := by
          rw [List.getD_eq_getElem?_getD]
          simp [hi ▸ hk]
        rw [hdk]
        refine if_congr ?_ rfl rfl
        rw [hlow k (hi ▸ hk)]
        refine and_congr_right fun _ => and_congr_right fun _ => ?_
        constructor
        · rintro ⟨k', hk', h1, h2⟩
          exact ⟨k', _, List.getElem?_eq_getElem hk', h2, (hlow k' (hi ▸ hk')).1 h1⟩
        · rintro ⟨k', b, h1, h2, h3⟩
          obtain ⟨hk', hb⟩ := List.getElem?_eq_some_iff.1 h1
          exact ⟨k', hk', (hlow k' (hi ▸ hk')).2 h3, hb ▸ h2⟩
      · rw [if_neg hmem, e3 i hmem]
        simp

/-- The word handed over by a call that returned, in any state that knows its models. -/
theorem combined_handed (c : CombCfg) (hm : 0 < c.modelLength) (hnd : c.mav.idx.Nodup) (hi : c.mav.idx.length = c.modelLength)
    (hinfo : ∀ w, 8 * (c.mav.infoBytes w).length ≤ w.length) (cls : Labeler σ) (ldpc : Ldpc Λ) (s : Comb σ Λ)
    (label : Nat) (st : List (Nat × Nat))
    (hst : s.mav.structures[label]? = some (some st)) {w : Option Nat} {fitv : List Val → ℝ × ℝ} {hist : String → List Val}
    {mb : Place → List Bool} {len : Nat} (h : Knows c.mav.stats w fitv hist mb st len s.mav.model) (data : List (List Bool))
    (he : EntKnows c s.ent label data) (h0 : 0 ≤ c.mav.center ∨ data ≠ []) (obs : List ℝ) (hl : obs.length = 8 * len)
    (hml : c.modelLength ≤ obs.length) (hlt : ∀ i ∈ c.mav.idx, i < obs.length) (r : CombOut)
    (hr : (s.decode c cls ldpc obs).result = .ok r) (hlab : r.label = label) :
    ∃ peak, IsPeak obs peak ∧ (s.decode c cls ldpc obs).handed = some (combinedWord c s.mav.model.modelSize data
      (bitSays c.mav.stats w fitv hist mb st (bitsToBytes (hardBits obs))) peak obs) := by
  obtain ⟨s1, inp0, inp, g1, g2, g3, g4, g5, g6, _⟩ := c68_handed c cls ldpc s obs r hr (by omega)
  rw [hlab, Int.toNat_natCast] at g1 g5
  obtain ⟨peak, p1, p2, p3⟩ := model_prediction c hm hinfo s1 label st (by rw [g3]; exact hst) (by rw [g4]; exact h) data
    (by rw [g2]; exact he) h0 obs hl hml
  rw [g4] at p3
  rw [p3] at g1
  injection g1 with g1
  refine ⟨peak, p1, ?_⟩
  rw [entropy_part c hm s label data he hnd hi obs inp0 (by rw [← g1, modelWord_length]; exact hlt) peak p2] at g5
  injection g5 with g5
  rw [g6, ← g5, ← g1, modelWord_length]
  rfl

/-! ### Runs -/

/-- Without learning, calls leave the structures and the contents of the field models. -/
theorem comb_frozen {c : CombCfg} (hl : c.mav.learning = false) (cls : Labeler σ) (ldpc : Ldpc Λ) (w : Option Nat)
    (hist : String → List Val) (words : List (List ℝ)) (s : Comb σ Λ) (h : BufInv c.mav.stats w hist s.mav.model.models) :
    (Comb.run c cls ldpc s words).1.mav.structures = s.mav.structures ∧
      (Comb.run c cls ldpc s words).1.mav.model.modelSize = s.mav.model.modelSize ∧
      BufInv c.mav.stats w hist (Comb.run c cls ldpc s words).1.mav.model.models := by
  induction words generalizing s with
  | nil => exact ⟨rfl, rfl, h⟩
  | cons ch rest ih =>
    have step : (s.decode c cls ldpc ch).state.mav.structures = s.mav.structures ∧
        (s.decode c cls ldpc ch).state.mav.model.modelSize = s.mav.model.modelSize ∧
        BufInv c.mav.stats w hist (s.decode c cls ldpc ch).state.mav.model.models := by
      rcases comb_cases c cls ldpc s ch (fun bm => SameContent bm s.mav.model ∧ BufInv c.mav.stats w hist bm.models)
        (fun bm name m r hl hb =>
          ⟨cache_same c.mav.stats s.mav.model bm name m r hl hb.1, cache_bufInv c.mav.stats w _ bm name m r hl hb.2⟩)
        ⟨.rfl' _, h⟩ with
        ⟨model, cs, run, e, hP, h'⟩ | ⟨cs, run, label, hneg, h'⟩ | ⟨model, cs, run, inp0, inp, label, hP, hp, ha, h'⟩
      · rw [h']; exact ⟨rfl, hP.1.size, hP.2⟩
      · rw [h']; exact ⟨rfl, rfl, h⟩
      · obtain ⟨mav, o, hmav, ho, h2⟩ := combUpdate_cases c ldpc
          { s with mav := { s.mav with model, cls := cs, running := run } } inp label (hardBits ch)
        have hm : mav.structures = s.mav.structures ∧ mav.model = model := by
          rw [hmav]
          unfold Mav.decodeUpdate
          rcases ldpc s.mav.ldpc (.llr inp) with ⟨l', o⟩
          simp only
          split
          · exact ⟨rfl, rfl⟩
          · rw [learn_frozen c.mav hl]; exact ⟨rfl, rfl⟩
        rw [h']
        rcases h2 with ⟨e, h2⟩ | h2
        · rw [h2]; exact ⟨hm.1, by rw [hm.2]; exact hP.1.size, by rw [hm.2]; exact hP.2⟩
        · rw [h2]; exact ⟨hm.1, by rw [hm.2]; exact hP.1.size, by rw [hm.2]; exact hP.2⟩
    obtain ⟨a1, a2, a3⟩ := step
    obtain ⟨b1, b2, b3⟩ := ih _ a3
    exact ⟨b1.trans a1, b2.trans a2, b3⟩

open Classical in
/-- C85, a decoder that learns, after any calls that returned: a call that assigns the word to a cluster whose structure is known
hands over the word specified for the values and the bits learned in those calls. -/
theorem c85_learned {c : CombCfg} {n len : Nat} (hf : c.Fits n) (hn : n = 8 * len) (hm : 0 < c.modelLength) (hw0 : c.window ≠ some 0)
    (hnd : c.mav.idx.Nodup) (hi : c.mav.idx.length = c.modelLength) (hlt : ∀ i ∈ c.mav.idx, i < n)
    (hinfo : ∀ w, 8 * (c.mav.infoBytes w).length ≤ w.length) (hl : c.mav.learning = true) (hcen : 0 ≤ c.mav.center)
    (cls : Labeler σ) (ldpc : Ldpc Λ) (hest : ∀ l i, (ldpc l i).2.estimate.length = n)
    (w : Option Nat) (cs : σ) (ls : Λ) (words : List (List ℝ)) (hwords : ∀ ch ∈ words, ch.length = n)
    (s : Comb σ Λ) (steps : List (CombStep σ Λ)) (evs : List MavEvent) (L : List (BufArg × List (Nat × Nat)))
    (hs : (s, steps) = Comb.run c cls ldpc (Comb.new c.mav.nClusters (BufferModel.new w) cs ls) words)
    (hok : ∀ st ∈ steps, ∃ r, st.result = .ok r) (hev : evs = steps.flatMap CombStep.events)
    (hL : L = (learnedWords c.mav.infoBytes [] evs).filter (fun a => Addable a))
    (label : Nat) (hlab : label < c.mav.nClusters) (st : List (Nat × Nat)) (hst : structureAfter c.mav.infoBytes evs label = some st)
    (hr : InRange len st) (obs : List ℝ) (hobs : obs.length = n)
    (hist : String → List Val) (hhist : hist = fun name => L.flatMap (takes name)) (fitv : List Val → ℝ × ℝ) (mb : Place → List Bool)
    (hfit : ∀ p ∈ fieldPlaces st, c.mav.stats.fit (windowed w (hist p.name)) = .ok (fitv (windowed w (hist p.name))))
    (hmb : ∀ p ∈ fieldPlaces st, meanBits c.mav.stats w (hist p.name) p.type = .ok (mb p) ∧ (mb p).length = 8 * width p.type)
    (r : CombOut) (hres : (s.decode c cls ldpc obs).result = .ok r) (hrl : r.label = label) :
    ∃ peak, IsPeak obs peak ∧ (s.decode c cls ldpc obs).handed = some (combinedWord c (sizeAfter w L.length)
      (keep c.window (combLearnedBy label steps))
      (bitSays c.mav.stats w fitv hist mb st (bitsToBytes (hardBits obs))) peak obs) := by
  have h := comb_mavInv hl cls ldpc w cs ls words
  have hE := entKnows_run hf hm hw0 cls ldpc hest words hwords label _ [] (by simp)
    (entKnows_new c label hlab (BufferModel.new w) cs ls) (by rw [← hs]; exact hok)
  rw [← hs] at h hE
  simp only [List.nil_append] at hE
  rw [← hev] at h
  have hsz := h.size
  have hfi := h.fields
  rw [← hL] at hsz hfi
  rw [← hsz]
  have hmn : c.modelLength ≤ n := by rcases hf with ⟨_, h⟩ | h <;> omega
  refine combined_handed c hm hnd hi hinfo cls ldpc s label st ?_ (len := len) ⟨hfit, hhist ▸ hfi, hr, ?_, hmb⟩ _ hE (Or.inl hcen)
    obs (by omega) (by omega) (by rw [hobs]; exact hlt) r hres hrl
  · rw [h.structures, List.getElem?_map, List.getElem?_range hlab, Option.map_some, hst]
  · unfold structureAfter at hst
    cases hfi : evs.find? fun e => e.pos == label && e.out.success with
    | none => rw [hfi] at hst; cases hst
    | some e =>
      rw [hfi] at hst
      injection hst with hst
      rw [← hst]
      exact messagesIn_apart _

/-- C85, a decoder with a predefined model made from the buffers `as`, after any calls that returned. -/
theorem c85_predefined {c : CombCfg} {n len : Nat} (hf : c.Fits n) (hn : n = 8 * len) (hm : 0 < c.modelLength) (hw0 : c.window ≠ some 0)
    (hnd : c.mav.idx.Nodup) (hi : c.mav.idx.length = c.modelLength) (hlt : ∀ i ∈ c.mav.idx, i < n)
    (hinfo : ∀ w, 8 * (c.mav.infoBytes w).length ≤ w.length) (hl : c.mav.learning = false) (hcen : 0 ≤ c.mav.center)
    (cls : Labeler σ) (ldpc : Ldpc Λ) (hest : ∀ l i, (ldpc l i).2.estimate.length = n)
    (w : Option Nat) (as : List (BufArg × List (Nat × Nat))) (has : ∀ a ∈ as, Addable a) (structures : List (Option (List (Nat × Nat))))
    (cs : σ) (ls : Λ) (s0 : Comb σ Λ)
    (hset : (Comb.new c.mav.nClusters (addAll c.mav.stats (BufferModel.new w) as) cs ls).setStructures c structures = (s0, .ok ()))
    (words : List (List ℝ)) (hwords : ∀ ch ∈ words, ch.length = n) (s : Comb σ Λ) (steps : List (CombStep σ Λ))
    (hs : (s, steps) = Comb.run c cls ldpc s0 words) (hok : ∀ st ∈ steps, ∃ r, st.result = .ok r)
    (label : Nat) (hlab : label < c.mav.nClusters) (st : List (Nat × Nat)) (hst : structures[label]? = some (some st))
    (hap : NonOverlapping st) (hr : InRange len st) (obs : List ℝ) (hobs : obs.length = n)
    (hist : String → List Val) (hhist : hist = fun name => as.flatMap (takes name)) (fitv : List Val → ℝ × ℝ) (mb : Place → List Bool)
    (hfit : ∀ p ∈ fieldPlaces st, c.mav.stats.fit (windowed w (hist p.name)) = .ok (fitv (windowed w (hist p.name))))
    (hmb : ∀ p ∈ fieldPlaces st, meanBits c.mav.stats w (hist p.name) p.type = .ok (mb p) ∧ (mb p).length = 8 * width p.type)
    (r : CombOut) (hres : (s.decode c cls ldpc obs).result = .ok r) (hrl : r.label = label) :
    ∃ peak, IsPeak obs peak ∧ (s.decode c cls ldpc obs).handed = some (combinedWord c (sizeAfter w as.length)
      (keep c.window (combLearnedBy label steps))
      (bitSays c.mav.stats w fitv hist mb st (bitsToBytes (hardBits obs))) peak obs) := by
  classical
  obtain ⟨_, h2, h3⟩ := addAll_inv c.mav.stats w as
  have hfa : as.filter (fun a => decide (Addable a)) = as := List.filter_eq_self.2 fun a ha => by simpa using has a ha
  rw [hfa] at h2 h3
  have hs0 : s0 = ⟨⟨structures, addAll c.mav.stats (BufferModel.new w) as, -1, cs, ls⟩, Ced.new c.mav.nClusters () ()⟩ := by
    unfold Comb.setStructures Mav.setStructures at hset
    by_cases hne : structures.length ≠ c.mav.nClusters
    · simp only [if_pos hne] at hset
      injection hset with _ hset
      cases hset
    · simp only [if_neg hne] at hset
      injection hset with hset _
      exact hset.symm
  have hm0 : s0.mav.model = addAll c.mav.stats (BufferModel.new w) as := by rw [hs0]
  have hE := entKnows_run hf hm hw0 cls ldpc hest words hwords label s0 [] (by simp)
    (by rw [hs0]; exact entKnows_new c label hlab (addAll c.mav.stats (BufferModel.new w) as) cs ls) (by rw [← hs]; exact hok)
  obtain ⟨k1, k2, k3⟩ := comb_frozen hl cls ldpc w hist words s0 (by rw [hm0, hhist]; exact h3)
  rw [← hs] at k1 k2 k3 hE
  simp only [List.nil_append] at hE k1 k2 k3
  rw [hm0, h2] at k2
  rw [← k2]
  have hmn : c.modelLength ≤ n := by rcases hf with ⟨_, h⟩ | h <;> omega
  exact combined_handed c hm hnd hi hinfo cls ldpc s label st (by rw [k1, hs0]; exact hst) (len := len) ⟨hfit, k3, hr, hap, hmb⟩ _ hE
    (Or.inl hcen) obs (by omega) (by omega) (by rw [hobs]; exact hlt) r hres hrl

/-! ### Decisions -/

theorem mul_sign (a b : ℝ) (hb : 0 < b) : a * b < 0 ↔ a < 0 := by
  rw [mul_neg_iff]
  constructor
  · rintro (⟨h1, h2⟩ | ⟨h1, h2⟩)
    · linarith
    · exact h1
  · intro h; exact Or.inr ⟨h, hb⟩

open Classical in
theorem handedBit_sign (rx mod : List (Nat × Nat)) (vf x y : ℝ) (i : Nat) (hv : 0 < vf) :
    (InMessages rx i → (handedBit rx mod vf x y i < 0 ↔ x < 0)) ∧
      (¬ InMessages rx i → (handedBit rx mod vf x y i < 0 ↔ y < 0)) := by
  unfold handedBit
  constructor
  · intro h
    have hne : rx ≠ [] := by rintro rfl; obtain ⟨r, hr, _⟩ := h; simp at hr
    rw [if_pos hne, if_pos h, mul_sign _ _ hv, mul_sign _ _ two_pos]
  · intro h
    rw [if_neg h]
    split
    · exact Iff.rfl
    · split
      · rw [mul_sign _ _ two_pos]
      · exact Iff.rfl

/-- C85, the hard decisions of the unified decoder before the entropy model's ratios are added. A bit of a message found in the
received word keeps its decision, and so does a bit neither forced nor steady. A forced bit is decided as the mean. A bit not
forced but steady, in a field with a bad score: with `flip` it is decided as the entropy model says, else as received. All other
bits are decided as received. -/
theorem c85_decisions (c : CombCfg) (hv : 0 < c.mav.validFactor) (hi : 0 < c.mav.invalidFactor) (size : Nat)
    (ent : Nat → Option EntBit) (info : Nat → Option BitSays) (peak : ℝ) (obs : List ℝ) (hpeak : 0 < peak) (i : Nat)
    (hlt : i < obs.length) (hx : obs.getD i 0 ≠ 0) :
    ∃ y, (unifiedWord c size ent info peak obs)[i]? = some y ∧
      (InMessages (messagesIn (c.mav.infoBytes (hardBits obs))) i → (y < 0 ↔ obs.getD i 0 < 0)) ∧
      (¬ InMessages (messagesIn (c.mav.infoBytes (hardBits obs))) i →
        (info i = none → (y < 0 ↔ obs.getD i 0 < 0)) ∧
        ∀ b, info i = some b →
          (b.Forced c.mav.learning → (y < 0 ↔ b.mean = true)) ∧
          (¬ b.Forced c.mav.learning →
            (∀ e, ent i = some e → e.steady → b.score < c.mav.invalidThr → c.flip = true → (y < 0 ↔ e.one)) ∧
            ((∀ e, ent i = some e → ¬ (e.steady ∧ b.score < c.mav.invalidThr ∧ c.flip = true)) → (y < 0 ↔ obs.getD i 0 < 0)))) := by
  classical
  have hvf := weighted_pos c.mav.learning size c.mav.center c.mav.slope c.mav.validFactor hv
  have hivf := weighted_pos c.mav.learning size c.mav.center c.mav.slope c.mav.invalidFactor hi
  unfold unifiedWord
  simp only
  generalize weighted c.mav.learning size c.mav.center c.mav.slope c.mav.validFactor = vf at *
  generalize weighted c.mav.learning size c.mav.center c.mav.slope c.mav.invalidFactor = ivf at *
  generalize messagesIn (c.mav.infoBytes (hardBits ((List.range obs.length).map fun i =>
    unifiedBit c.mav.learning c.flip c.mav.validThr c.mav.invalidThr vf ivf peak (obs.getD i 0) (ent i) (info i)))) = mod
  generalize messagesIn (c.mav.infoBytes (hardBits obs)) = rx
  rw [List.getElem?_map, List.getElem?_range hlt, Option.map_some]
  generalize obs.getD i 0 = x at *
  refine ⟨_, rfl, (handedBit_sign rx mod vf x _ i hvf).1, fun hn => ?_⟩
  rw [(handedBit_sign rx mod vf x _ i hvf).2 hn]
  refine ⟨fun h => by rw [h]; exact Iff.rfl, fun b hb => ?_⟩
  rw [hb]
  simp only [unifiedBit]
  refine ⟨fun hf => ?_, fun hf => ⟨fun e he hst hsc hfl => ?_, fun hno => ?_⟩⟩
  · rw [if_pos hf, mul_sign _ _ (mul_pos hpeak (lt_of_lt_of_le one_pos (le_max_right _ _)))]
    cases b.mean <;> simp
  · rw [if_neg hf, he]
    simp only
    rw [if_pos hst, hfl]
    have hg : 0 < (if 1 - c.mav.validThr < b.score then vf else 1) := by split <;> [exact hvf; exact one_pos]
    generalize (if 1 - c.mav.validThr < b.score then vf else 1) = g at *
    by_cases hag : e.one ↔ x < 0
    · rw [if_neg (fun h => h.2 hag), mul_one, mul_sign _ _ hg, hag]
    · rw [if_pos ⟨hsc, hag⟩, if_pos rfl, mul_neg, neg_lt_zero]
      have hxx : 0 < x * g * ivf ↔ 0 < x := by
        rw [mul_pos_iff_of_pos_right hivf, mul_pos_iff_of_pos_right hg]
      rw [hxx]
      rcases lt_or_gt_of_ne hx with h | h
      · constructor
        · intro h'; linarith
        · intro h'; exact absurd ⟨fun _ => h, fun _ => h'⟩ hag
      · constructor
        · intro _
          by_contra h1
          exact hag ⟨fun h' => absurd h' h1, fun h' => by linarith⟩
        · intro _; exact h
  · rw [if_neg hf]
    cases he : ent i with
    | none => exact Iff.rfl
    | some e =>
      simp only
      split
      · rename_i hst
        have hg : 0 < (if 1 - c.mav.validThr < b.score then vf else 1) := by split <;> [exact hvf; exact one_pos]
        rw [mul_sign _ _ (by
          split
          · rename_i hh
            have hfl : ¬ c.flip = true := fun hfl => hno e he ⟨hst, hh.1, hfl⟩
            rw [if_neg hfl]; exact hivf
          · exact one_pos), mul_sign _ _ hg]
      · exact Iff.rfl

/-! An example: the heartbeat of the example of C80 with a unified decoder of two model bits. -/

noncomputable def zeroComb : CombCfg :=
  { mav := { zeroCfg with idx := [0, 1] }, modelLength := 2, threshold := 1/2, clipping := 5, bitFlip := 0, window := none,
    unified := true, flip := true }

/-- An LDPC decoder that always finds the same codeword, a one and then zeros. -/
def oneLdpc : Ldpc Unit := fun _ _ => ((), ⟨true :: List.replicate 135 false, [], true, 1, [], []⟩)

theorem single_learned (c : CombCfg) (h1 : c.mav.nClusters = 1) (hl : c.mav.learning = false) (cls : Labeler σ) (ldpc : Ldpc Λ) (s : Comb σ Λ)
    (hs : 0 < s.mav.structures.length) (ch inp0 inp : List ℝ) (hp : (s.mavlinkPrediction c ch 0).2 = .ok inp0)
    (ha : s.addEntropy c ch inp0 0 = .ok inp) :
    ∃ b, (s.decode c cls ldpc ch).learned = some (0, b) ∧
      b = c.learnedBits (if (ldpc s.mav.ldpc (.llr inp)).2.success then (ldpc s.mav.ldpc (.llr inp)).2.estimate else hardBits ch) := by
  have hpk : pickLabel cls c.mav.nClusters c.mav.cluster s.mav.cls s.mav.running [] = (s.mav.cls, s.mav.running, .ok 0) := by
    simp [pickLabel, h1]
  obtain ⟨model, g1, -⟩ := combPredict_pres c s ch 0 (fun _ => True) (fun _ _ _ _ _ _ => trivial) trivial
  unfold Comb.decode
  rw [if_neg (by omega)]
  simp only [hpk]
  rw [if_neg (by omega)]
  rcases hmp : s.mavlinkPrediction c ch 0 with ⟨s1, r⟩
  rw [hmp] at hp g1
  simp only at hp g1
  subst hp g1
  have he : ({ s with mav := { s.mav with cls := s.mav.cls, running := s.mav.running } } : Comb σ Λ) = s := rfl
  have hz : (0 : Int).toNat = 0 := rfl
  have hb : ({ s with mav := { s.mav with model } } : Comb σ Λ).addEntropy c ch inp0 0 = .ok inp := ha
  simp only [he, hz, hmp, hb]
  unfold Comb.decodeUpdate
  have hmav : ∃ mav, Mav.decodeUpdate c.mav ldpc { s.mav with model } inp ((0 : Nat) : Int) (hardBits ch) =
      (mav, (ldpc s.mav.ldpc (.llr inp)).2, .ok ()) := by
    unfold Mav.decodeUpdate
    have : pyPos s.mav.structures.length ((0 : Nat) : Int) = some 0 := by
      unfold pyPos
      simp [hs]
    simp only [this, learn_frozen c.mav hl]
    exact ⟨_, rfl⟩
  obtain ⟨mav, hmav⟩ := hmav
  simp only [hmav]
  exact ⟨_, rfl, rfl⟩

/-- The decoder of the example after `set_buffer_structures`. -/
noncomputable def zeroState : Comb Unit Unit :=
  ⟨⟨[some [(0, 0)]], addAll zeroOps (BufferModel.new none) [(.bytes zeroBeat, [(0, 0)])], -1, (), ()⟩, Ced.new 1 () ()⟩

theorem zero_range : InRange 17 [(0, 0)] := by
  intro r hr
  simp at hr
  subst hr
  exact ⟨Dialect.msg0, by decide +kernel, by decide, by decide, by decide⟩

theorem zero_mean (p : Place) (hp : p ∈ fieldPlaces [(0, 0)]) :
    meanBits zeroOps none (([(BufArg.bytes zeroBeat, [(0, 0)])] : List (BufArg × List (Nat × Nat))).flatMap (takes p.name)) p.type =
      .ok (List.replicate (8 * width p.type) false) := by
  have hne : ∀ p ∈ fieldPlaces [(0, 0)], ([(BufArg.bytes zeroBeat, [(0, 0)])] : List (BufArg × List (Nat × Nat))).flatMap (takes p.name) ≠ [] := by
    decide +kernel
  rw [meanBits, if_neg (hne p hp)]
  rfl

theorem zero_info (w : List Bool) : 8 * (zeroComb.mav.infoBytes w).length ≤ w.length := by
  show 8 * (if w.length = 136 then bitsToBytes w else []).length ≤ w.length
  split
  · rename_i hw
    simp [bitsToBytes, hw]
  · simp

theorem zero_ent : EntKnows zeroComb zeroState.ent 0 [] := entKnows_new zeroComb 0 (by decide) zeroState.mav.model () ()

theorem zero_addable (a : BufArg × List (Nat × Nat)) (ha : a ∈ [(BufArg.bytes zeroBeat, [(0, 0)])]) : Addable a := by
  simp at ha
  subst ha
  exact ⟨_, rfl, zero_range⟩

theorem zero_returns (cls : Labeler Unit) :
    ∃ r, (zeroState.decode zeroComb cls oneLdpc (List.replicate 136 (-1))).result = .ok r ∧ r.label = 0 := by
  classical
  obtain ⟨_, _, h3⟩ := addAll_inv zeroOps none [(BufArg.bytes zeroBeat, [(0, 0)])]
  rw [List.filter_eq_self.2 fun a ha => by simpa using zero_addable a ha] at h3
  obtain ⟨peak, _, hmx, hp⟩ := model_prediction zeroComb (by decide) zero_info zeroState 0 [(0, 0)] rfl (w := none)
    (fitv := fun _ => (0, 0)) (mb := fun p => List.replicate (8 * width p.type) false) (len := 17)
    ⟨fun _ _ => rfl, h3, zero_range, by simp [NonOverlapping], fun p hp => ⟨zero_mean p hp, by simp⟩⟩ [] zero_ent
    (Or.inl (by norm_num [zeroComb, zeroCfg])) (List.replicate 136 (-1)) (by rw [List.length_replicate])
    (by rw [List.length_replicate]; decide)
  obtain ⟨inp0, hp, hil⟩ : ∃ inp0, (zeroState.mavlinkPrediction zeroComb (List.replicate 136 (-1)) 0).2 = .ok inp0 ∧ inp0.length = 136 :=
    ⟨_, hp, by rw [modelWord_length, List.length_replicate]⟩
  have ha := entropy_part zeroComb (by decide) zeroState 0 [] zero_ent (by decide) rfl (List.replicate 136 (-1)) inp0
    (by
      intro i hi
      rw [hil]
      have hi : i = 0 ∨ i = 1 := by simpa [zeroComb] using hi
      omega) peak hmx
  obtain ⟨b, hb, hbe⟩ := single_learned zeroComb rfl rfl cls oneLdpc zeroState Nat.one_pos (List.replicate 136 (-1)) inp0 _ hp ha
  obtain ⟨_, data, hd, hret, _⟩ := c68_fits_returns (c := zeroComb) (n := 136) (Or.inl ⟨rfl, by decide⟩) (by decide) (by decide)
    cls oneLdpc (fun _ _ => by simp only [oneLdpc, List.length_cons, List.length_replicate]) zeroState _ (by rw [List.length_replicate]) hb
  rcases comb_ent_cases zeroComb cls oneLdpc zeroState (List.replicate 136 (-1)) with ⟨h1, _⟩ | ⟨label, o, inp, lst, ho, _, d1, d2, d3, hlearn, hst, hres⟩
  · rw [h1] at hb; cases hb
  · rw [hlearn] at hb
    injection hb with hb
    injection hb with hl hb
    subst hl
    have hbit : b = [true, false] := by rw [hbe]; rfl
    rw [hb, hbit] at hst hres
    have hdd := update_data (c := zeroComb.ced) rfl zeroState.ent (bits := [true, false]) rfl zero_ent.held
    rw [← hst, hd] at hdd
    injection hdd with hdd
    have hdd : data = [[true, false]] := by rw [hdd]; rfl
    obtain ⟨r, hr⟩ := hret (by
      rw [hdd]
      exact ⟨⟨_, List.mem_singleton.2 rfl, 1, by decide, rfl⟩, ⟨_, List.mem_singleton.2 rfl, 0, by decide, rfl⟩⟩)
    refine ⟨r, hr, ?_⟩
    rw [hres] at hr
    cases hu : (zeroState.ent.update zeroComb.ced [true, false] 0).2 with
    | error e => rw [hu] at hr; cases hr
    | ok u => rw [hu] at hr; cases hr; rfl

/-- The hypotheses of `c85_predefined` are met: the first call, with a word of 136 ones, returns, and every bit of the header and
payload of the heartbeat is handed over decided zero and the last two bytes as received. -/
example (cls : Labeler Unit) : ∃ r w,
    (Comb.new 1 (addAll zeroOps (BufferModel.new none) [(.bytes zeroBeat, [(0, 0)])]) () ()).setStructures zeroComb [some [(0, 0)]] =
      (zeroState, .ok ()) ∧
    (zeroState.decode zeroComb cls oneLdpc (List.replicate 136 (-1))).result = .ok r ∧ r.label = 0 ∧
    (zeroState.decode zeroComb cls oneLdpc (List.replicate 136 (-1))).handed = some w ∧
    ∀ i < 136, ∃ y, w[i]? = some y ∧ (y < 0 ↔ 120 ≤ i) := by
  obtain ⟨r, hres, hrl⟩ := zero_returns cls
  obtain ⟨peak, hpk, hw⟩ := c85_predefined (c := zeroComb) (n := 136) (len := 17) (Or.inl ⟨rfl, by decide⟩) rfl (by decide) (by decide)
    (by decide) rfl (by decide) zero_info rfl (by norm_num [zeroComb, zeroCfg]) cls oneLdpc
    (fun _ _ => by simp only [oneLdpc, List.length_cons, List.length_replicate]) none _ zero_addable [some [(0, 0)]] () () zeroState rfl
    [] (by simp) zeroState [] rfl (by simp) 0 (by decide) [(0, 0)] rfl (by simp [NonOverlapping]) zero_range
    (List.replicate 136 (-1)) (by rw [List.length_replicate]) _ rfl (fun _ => (0, 0)) (fun p => List.replicate (8 * width p.type) false)
    (fun _ _ => rfl) (fun p hp => ⟨zero_mean p hp, by simp⟩) r hres hrl
  refine ⟨r, _, rfl, hres, hrl, hw, fun i hi => ?_⟩
  have hhard : hardBits (List.replicate 136 (-1 : ℝ)) = List.replicate 136 true := by
    simp [hardBits]
  have hmsg : messagesIn (zeroComb.mav.infoBytes (hardBits (List.replicate 136 (-1 : ℝ)))) = [] := by
    rw [hhard]
    have he : zeroComb.mav.infoBytes (List.replicate 136 true) = bitsToBytes (List.replicate 136 true) := by
      have hg : ∀ w, zeroComb.mav.infoBytes w = if w.length = 136 then bitsToBytes w else [] := fun _ => rfl
      rw [hg, if_pos (by rw [List.length_replicate])]
    rw [he]
    decide +kernel
  have hpk : 0 < peak := by
    obtain ⟨x, hx, rfl⟩ := hpk.1
    rw [List.eq_of_mem_replicate hx]
    norm_num
  have hg : (List.replicate 136 (-1 : ℝ)).getD i 0 = -1 := by
    rw [List.getD_eq_getElem?_getD, List.getElem?_replicate, if_pos hi]; rfl
  obtain ⟨y, g1, _, g3⟩ := c85_decisions zeroComb (by norm_num [zeroComb, zeroCfg]) (by norm_num [zeroComb, zeroCfg])
    (sizeAfter none [(BufArg.bytes zeroBeat, [(0, 0)])].length) (entSays zeroComb [])
    (bitSays zeroComb.mav.stats none (fun _ => (0, 0)) (fun name => [(BufArg.bytes zeroBeat, [(0, 0)])].flatMap (takes name))
      (fun p => List.replicate (8 * width p.type) false) [(0, 0)] (bitsToBytes (hardBits (List.replicate 136 (-1 : ℝ))))) peak
      (List.replicate 136 (-1)) hpk i (by rw [List.length_replicate]; exact hi)
    (by rw [hg]; norm_num)
  refine ⟨y, ?_, ?_⟩
  · have hk : keep zeroComb.window (combLearnedBy 0 ([] : List (CombStep Unit Unit))) = [] := rfl
    rw [hk]
    unfold combinedWord modelWord
    have hu : zeroComb.unified = true := rfl
    rw [List.getElem?_map, List.getElem?_range (by rw [List.length_replicate]; exact hi), Option.map_some, if_pos hu,
      List.getD_eq_getElem?_getD, g1]
    simp [entAdd]
  have hno : ¬ InMessages [] i := by rintro ⟨r, hr, _⟩; simp at hr
  rw [hmsg] at g3
  obtain ⟨g4, g5⟩ := g3 hno
  have hhas : ∀ k < 17, (∃ q ∈ fieldPlaces [(0, 0)], q.Has k) ↔ k < 15 := by decide +kernel
  have hhas := hhas (i / 8) (by omega)
  rcases bitSays_of (O := zeroComb.mav.stats) (w := none) (fitv := fun _ => (0, 0))
    (hist := fun name => ([(BufArg.bytes zeroBeat, [(0, 0)])] : List (BufArg × List (Nat × Nat))).flatMap (takes name))
    (mb := fun p => List.replicate (8 * width p.type) false) (st := [(0, 0)]) (bitsToBytes (hardBits (List.replicate 136 (-1 : ℝ)))) i with
    ⟨q, hq, hh, he⟩ | ⟨hnone, he⟩
  · have h15 := hhas.1 ⟨q, hq, hh⟩
    rw [(g5 _ he).1 (by
      unfold BitSays.Forced
      refine ⟨fun h => absurd h (by decide), ?_⟩
      have hcl : ∀ v, (FieldModel.classify zeroOps 0 0 v).2 = 0 := by
        intro v
        unfold FieldModel.classify
        simp only [zeroOps]
        by_cases hv : v = Val.int 0 <;> simp [hv]
      exact hcl _)]
    simp only [List.getD_eq_getElem?_getD, List.getElem?_replicate]
    constructor
    · intro h; split at h <;> simp at h
    · intro h; omega
  · have h15 : ¬ i / 8 < 15 := fun h => by
      obtain ⟨q, hq, hh⟩ := hhas.2 h
      exact hnone q hq hh
    rw [g4 he, hg]
    constructor
    · intro _; omega
    · intro _; norm_num

end NR

import Verif.Props.C80
import Verif.Props.C81
/-
C82: one step of the analysis of the field classifier (scripts/classifier_analysis.py), for all words.
-/
namespace NR
open Spec Dialect

variable {O : StatOps Val ℝ} {w : Option Nat} {fitv : List Val → ℝ × ℝ} {hist : String → List Val} {mb : Place → List Bool}

/-- The scores of the fields, for a model that knows them all. -/
theorem Knows.fields {st : List (Nat × Nat)} {len : Nat} {m : BufferModel ℝ} (h : Knows O w fitv hist mb st len m)
    (l : List Bool) (hl : l.length = 8 * len) (p : BufferModel.Prediction ℝ) (hp : (m.predict O (.bits l) st).2 = .ok p) :
    p.fields = (fieldPlaces st).map fun q => some (q.name, fieldScore O w fitv hist (bitsToBytes l) q) := by
  obtain ⟨e, hlen⟩ := predict_bits O m l len hl st
  obtain ⟨p', hp', hf, _⟩ := predict_of_inv O fitv w m hist h.inv (bitsToBytes l) st
    (by rw [hlen]; exact h.range) h.apart fun q hq _ => h.fit q hq
  rw [e, hp'] at hp
  cases hp
  rw [hf]
  apply List.map_congr_left
  intro q hq
  rw [scoreOf, if_neg (hist_ne (h.mean q hq).1)]
  rfl

theorem fieldSays_scored (score : Place → ℝ × ℝ) (st : List (Nat × Nat)) (P : ℝ → ℝ → Prop) (j : Nat) :
    FieldSays ((fieldPlaces st).map fun q => some (q.name, score q)) P j ↔ Scored score st P j := by
  unfold FieldSays Scored
  rw [List.getElem?_map]
  constructor
  · rintro ⟨name, x, s, he, hP⟩
    cases hq : (fieldPlaces st)[j]? with
    | none => rw [hq] at he; cases he
    | some q =>
      rw [hq] at he
      simp only [Option.map_some, Option.some.injEq, Prod.mk.injEq] at he
      refine ⟨q, rfl, ?_⟩
      rw [he.2]
      exact hP
  · rintro ⟨q, hq, hP⟩
    rw [hq]
    exact ⟨q.name, (score q).1, (score q).2, rfl, hP⟩

theorem Knows.of_inv {st : List (Nat × Nat)} {len : Nat} {m m' : BufferModel ℝ} (h : Knows O w fitv hist mb st len m)
    (hi : BufInv O w hist m'.models) : Knows O w fitv hist mb st len m' := ⟨h.fit, hi, h.range, h.apart, h.mean⟩

/-- The mean of the model at the positions `P`. -/
theorem Knows.meanAt {st : List (Nat × Nat)} {len : Nat} {m : BufferModel ℝ} (h : Knows O w fitv hist mb st len m)
    (buf : List Byte) (P : Nat → Prop) (hP : ∀ i < 8 * len, P i → ∃ b, bitSays O w fitv hist mb st buf i = some b) :
    (m.bitwiseModelMean O (positions (8 * len) P) len st).2 = .ok ((positions (8 * len) P).map fun i =>
      ((bitSays O w fitv hist mb st buf i).map BitSays.mean).getD false) := by
  obtain ⟨r, hr, hrl, hb⟩ := mean_of_inv O w m hist h.inv len st h.range h.apart mb h.mean (positions (8 * len) P)
    (fun i hi => (mem_positions.1 hi).1)
  rw [hr]
  congr 1
  apply List.ext_getElem?
  intro k
  rw [List.getElem?_map]
  cases hk : (positions (8 * len) P)[k]? with
  | none =>
    rw [Option.map_none, List.getElem?_eq_none_iff]
    rw [List.getElem?_eq_none_iff] at hk
    omega
  | some i =>
    obtain ⟨g1, g2⟩ := hb k i hk
    obtain ⟨hi, hPi⟩ := mem_positions.1 (List.mem_of_getElem? hk)
    obtain ⟨b, hbs⟩ := hP i hi hPi
    rcases bitSays_of (O := O) (w := w) (fitv := fitv) (hist := hist) (mb := mb) (st := st) buf i with
      ⟨q, hq, hh, he⟩ | ⟨_, he⟩
    · rw [Option.map_some, he, g1 q hq hh]
      have hw := (h.mean q hq).2
      have : i - 8 * q.start < (mb q).length := by
        obtain ⟨a1, a2⟩ := hh
        omega
      rw [List.getElem?_eq_getElem this, List.getD_eq_getElem?_getD, List.getElem?_eq_getElem this]
      rfl
    · rw [hbs] at he; cases he

theorem forcedBits_eq {p : BufferModel.Prediction ℝ} {n : Nat} {info : Nat → Option BitSays} (h : PredSays p n info) :
    forcedBits p.bitProb p.bitStd = positions n (WrongBit info) := by
  refine eq_positions ?_ ?_ fun i => h.forced i
  · unfold forcedBits
    exact List.Pairwise.filter _ List.pairwise_le_range
  · unfold forcedBits
    exact List.Nodup.filter _ List.nodup_range

/-- C82: one word. With a model that knows every field of the structure, the analysis of a word of whole bytes succeeds, reports
what the models say about the word received, and leaves the samples of the model alone. -/
theorem c82_word (thr : ℝ) {st : List (Nat × Nat)} {len : Nat} {bm : BufferModel ℝ} (h : Knows O w fitv hist mb st len bm)
    (tx : List Bool) (htx : tx.length = 8 * len) (errors : List Nat) (he : errors.Nodup) (hel : ∀ e ∈ errors, e < tx.length) :
    ∃ bm' r, analyseWord O thr bm st tx errors = (bm', .ok r) ∧ SameContent bm' bm ∧ BufInv O w hist bm'.models ∧
      ReportOf thr st (fieldScore O w fitv hist (bitsToBytes (flipAt tx errors)))
        (bitSays O w fitv hist mb st (bitsToBytes (flipAt tx errors))) tx (flipAt tx errors) errors r := by
  have hrx : (flipAt tx errors).length = 8 * len := by rw [flipAt_length, htx]
  obtain ⟨p, m1, hp, hk1, _, hs⟩ := h.predict (flipAt tx errors) hrx
  have hf := h.fields (flipAt tx errors) hrx p (by rw [hp])
  have hcp : CachePreserved O (fun b => SameContent b bm ∧ BufInv O w hist b.models) := fun b name fm r hlk hb =>
    ⟨cache_same O bm b name fm r hlk hb.1, cache_bufInv O w hist b name fm r hlk hb.2⟩
  have hm1 := bufPredict_pres O _ hcp bm (.bits (flipAt tx errors)) st ⟨.rfl' _, h.inv⟩
  rw [hp] at hm1
  obtain ⟨d, hd, hdm, _, _⟩ := damaged_list h.range h.apart errors
  have hlen8 : (flipAt tx errors).length / 8 = len := by omega
  have hfb := forcedBits_eq hs
  have hmean := hk1.meanAt (bitsToBytes (flipAt tx errors))
    (WrongBit (bitSays O w fitv hist mb st (bitsToBytes (flipAt tx errors)))) (fun i _ ⟨b, hb, _⟩ => ⟨b, hb⟩)
  have hm2 := bufMean_pres O _ hcp m1
    (positions (8 * len) (WrongBit (bitSays O w fitv hist mb st (bitsToBytes (flipAt tx errors))))) len st hm1
  rcases hbm : m1.bitwiseModelMean O
    (positions (8 * len) (WrongBit (bitSays O w fitv hist mb st (bitsToBytes (flipAt tx errors))))) len st with ⟨m2, x⟩
  rw [hbm] at hmean hm2
  simp only at hmean hm2
  subst hmean
  have hnone : none ∉ p.fields := by
    rw [hf]
    simp
  have hfl : p.fields.length = (fieldPlaces st).length := by rw [hf, List.length_map]
  have hdn : (d.map Prod.snd).dedup.Nodup := List.nodup_dedup _
  have hdm' : ∀ j, j ∈ (d.map Prod.snd).dedup ↔ Damaged st errors j := fun j => by rw [List.mem_dedup, hdm]
  have hdl : ∀ j ∈ (d.map Prod.snd).dedup, j < p.fields.length := by
    intro j hj
    obtain ⟨q, hq, _⟩ := (hdm' j).1 hj
    rw [hfl]
    exact (List.getElem?_eq_some_iff.1 hq).1
  obtain ⟨ch, hch, c1, c2, c3, c4, c5, c6⟩ := c81_classifier p.fields hnone p.bitProb thr _ hdn hdl
  have hchb : ch.goodBits = above (1 - thr) p.bitProb ∧ ch.badBits = below thr p.bitProb := by
    unfold characterize at hch
    rw [fieldsWhere_positions _ _ hnone, fieldsWhere_positions _ _ hnone] at hch
    cases hch
    exact ⟨rfl, rfl⟩
  obtain ⟨fo, share, hfo, f1, f2, f3, f4, f5, f6, f7, f8, f9, f10, f11, f12, f13, f14⟩ := c81_forcing p.fields hnone
    (WrongBit (bitSays O w fitv hist mb st (bitsToBytes (flipAt tx errors))))
    (fun i => ((bitSays O w fitv hist mb st (bitsToBytes (flipAt tx errors)) i).map BitSays.mean).getD false)
    tx (d.map Prod.snd).dedup errors hdn hdl he hel
  have hS : ∀ P j, FieldSays p.fields P j ↔
      Scored (fieldScore O w fitv hist (bitsToBytes (flipAt tx errors))) st P j := by
    intro P j
    rw [hf]
    exact fieldSays_scored _ _ _ _
  refine ⟨m2, ⟨flipAt tx errors, (d.map Prod.snd).dedup, ch, fo⟩, ?_, hm2.1, hm2.2, ?_⟩
  · unfold analyseWord
    rw [invertAt_eq tx errors he hel]
    simp only [hp, hlen8, hd, hch, forcedFields_positions _ hnone, hfb, hbm]
    rw [← htx, hfo]
    rfl
  · generalize hbit : bitSays O w fitv hist mb st (bitsToBytes (flipAt tx errors)) = bit at *
    have hF : ∀ i, (WrongBit bit i ∧ ((bit i).map BitSays.mean).getD false ≠ (flipAt tx errors).getD i false) ↔
        FlippedBit bit (flipAt tx errors) i := by
      intro i
      constructor
      · rintro ⟨⟨b, hb, hw⟩, hne⟩
        rw [hb] at hne
        exact ⟨b, hb, hw, hne⟩
      · rintro ⟨b, hb, hw, hne⟩
        refine ⟨⟨b, hb, hw⟩, ?_⟩
        rw [hb]
        exact hne
    have hT : ∀ i, (WrongBit bit i ∧ ((bit i).map BitSays.mean).getD false ≠ tx.getD i false) ↔ MisledBit bit tx i := by
      intro i
      constructor
      · rintro ⟨⟨b, hb, hw⟩, hne⟩
        rw [hb] at hne
        exact ⟨b, hb, hw, hne⟩
      · rintro ⟨b, hb, hw, hne⟩
        refine ⟨⟨b, hb, hw⟩, ?_⟩
        rw [hb]
        exact hne
    rw [hfl] at *
    constructor
    · rfl
    · exact hdm'
    · exact c3
    · rw [c4, length_positions hdn hdl]
      exact congrArg _ (positions_congr fun j _ => hdm' j)
    · rw [c1]; exact positions_congr fun j _ => hS _ j
    · rw [c2]; exact positions_congr fun j _ => hS _ j
    · intro i hi
      simp only [hchb.1]
      exact hs.above (1 - thr) i (by omega)
    · intro i hi
      simp only [hchb.2]
      exact hs.below thr i (by omega)
    · rw [c5]; exact tableOf_congr (fun j _ => hS _ j) fun j _ => not_congr (hdm' j)
    · rw [c6]; exact tableOf_congr (fun j _ => hS _ j) fun j _ => hdm' j
    · rw [f1]; exact positions_congr fun j _ => hS _ j
    · exact f2
    · exact f3
    · exact f4
    · exact f5
    · rw [f6]; exact positions_congr fun j _ => and_congr (hS _ j) (hdm' j)
    · rw [f7]; exact positions_congr fun j _ => and_congr (hS _ j) (not_congr (hdm' j))
    · rw [f8]; exact positions_congr fun j _ => and_congr (hdm' j) (not_congr (hS _ j))
    · exact f9
    · rw [f10]; exact tableOf_congr (fun j _ => hS _ j) fun j _ => hdm' j
    · rw [f11]; exact tableOf_congr (fun i _ => hF i) fun _ _ => Iff.rfl
    · refine ⟨share, ?_, ?_, f14⟩
      · rw [f12, positions_congr fun i _ => hF i, positions_congr fun i _ => and_congr_left' (hF i),
          positions_congr fun i _ => and_congr_left' (hF i)]
      · rw [f13, positions_congr fun i _ => hT i]

/-- All words, for any model that knows the fields of all structures. -/
theorem analyse_words (thr : ℝ) (structures : List (List (Nat × Nat))) (nClusters len : Nat) (hc : 0 < nClusters)
    (hcl : nClusters ≤ structures.length) (bm : BufferModel ℝ)
    (h : ∀ st ∈ structures, Knows O w fitv hist mb st len bm) (words : List (List Bool × List Nat))
    (hw : ∀ x ∈ words, x.1.length = 8 * len ∧ x.2.Nodup ∧ ∀ e ∈ x.2, e < x.1.length) :
    ∃ rs, analysisStep O thr structures nClusters false bm words = .ok rs ∧ rs.length = words.length ∧
      ∀ (i : Nat) (tx : List Bool) (errors : List Nat), words[i]? = some (tx, errors) →
        ∃ r st, rs[i]? = some r ∧ structures[i % nClusters]? = some st ∧
          ReportOf thr st (fieldScore O w fitv hist (bitsToBytes (flipAt tx errors)))
            (bitSays O w fitv hist mb st (bitsToBytes (flipAt tx errors))) tx (flipAt tx errors) errors r := by
  have key : ∀ (words : List (List Bool × List Nat))
      (_ : ∀ x ∈ words, x.1.length = 8 * len ∧ x.2.Nodup ∧ ∀ e ∈ x.2, e < x.1.length) (bm : BufferModel ℝ)
      (_ : ∀ st ∈ structures, Knows O w fitv hist mb st len bm) (k : Nat),
      ∃ bm' rs, analyseWords O thr structures nClusters bm (k % nClusters) words = (bm', .ok rs) ∧
        rs.length = words.length ∧ ∀ (i : Nat) (tx : List Bool) (errors : List Nat), words[i]? = some (tx, errors) →
        ∃ r st, rs[i]? = some r ∧ structures[(k + i) % nClusters]? = some st ∧
          ReportOf thr st (fieldScore O w fitv hist (bitsToBytes (flipAt tx errors)))
            (bitSays O w fitv hist mb st (bitsToBytes (flipAt tx errors))) tx (flipAt tx errors) errors r := by
    intro words
    induction words with
    | nil =>
      intro _ bm _ k
      exact ⟨bm, [], rfl, rfl, fun i tx errors h => by simp at h⟩
    | cons x rest ih =>
      intro hw bm h k
      obtain ⟨tx, errors⟩ := x
      obtain ⟨w1, w2, w3⟩ := hw (tx, errors) (by simp)
      have hk : k % nClusters < structures.length := Nat.lt_of_lt_of_le (Nat.mod_lt _ hc) hcl
      have hst := List.getElem?_eq_getElem hk
      obtain ⟨bm1, r, hr, _, hinv, hrep⟩ := c82_word thr (h _ (List.getElem_mem hk)) tx w1 errors w2 w3
      obtain ⟨bm2, rs, hrs, hl, hall⟩ := ih (fun y hy => hw y (List.mem_cons_of_mem _ hy)) bm1
        (fun st hs => (h st hs).of_inv hinv) (k + 1)
      refine ⟨bm2, r :: rs, ?_, by simp [hl], ?_⟩
      · unfold analyseWords
        rw [hst]
        simp only [hr]
        rw [Nat.mod_add_mod, hrs]
      · intro i tx' errors' hi
        cases i with
        | zero =>
          simp only [List.getElem?_cons_zero, Option.some.injEq, Prod.mk.injEq] at hi
          obtain ⟨rfl, rfl⟩ := hi
          exact ⟨r, _, rfl, hst, hrep⟩
        | succ i =>
          rw [List.getElem?_cons_succ] at hi
          obtain ⟨r', st', h1, h2, h3⟩ := hall i tx' errors' hi
          refine ⟨r', st', by rw [List.getElem?_cons_succ]; exact h1, ?_, h3⟩
          rw [← h2]
          congr 2
          omega
  obtain ⟨bm', rs, hrs, hl, hall⟩ := key words hw bm h 0
  refine ⟨rs, ?_, hl, ?_⟩
  · unfold analysisStep
    rw [Nat.zero_mod] at hrs
    simp only [Bool.false_eq_true, if_false, hrs]
  · intro i tx errors hi
    obtain ⟨r, st, h1, h2, h3⟩ := hall i tx errors hi
    rw [Nat.zero_add] at h2
    exact ⟨r, st, h1, h2, h3⟩

/-- C82: all words. The model has been made from the buffers `as`, with a value for every field of the structures. Word number `i`
is analysed with structure number `i` modulo the number of clusters, against the values in those buffers: the analysis of a word
does not change what is said about the next. -/
theorem c82_words (O : StatOps Val ℝ) (w : Option Nat) (thr : ℝ) (as : List (BufArg × List (Nat × Nat)))
    (has : ∀ a ∈ as, Addable a) (structures : List (List (Nat × Nat))) (nClusters len : Nat) (hc : 0 < nClusters)
    (hcl : nClusters ≤ structures.length) (hr : ∀ st ∈ structures, InRange len st ∧ NonOverlapping st)
    (hist : String → List Val) (hhist : hist = fun name => as.flatMap (takes name)) (fitv : List Val → ℝ × ℝ)
    (mb : Place → List Bool)
    (hfit : ∀ st ∈ structures, ∀ p ∈ fieldPlaces st, O.fit (windowed w (hist p.name)) = .ok (fitv (windowed w (hist p.name))))
    (hmb : ∀ st ∈ structures, ∀ p ∈ fieldPlaces st,
      meanBits O w (hist p.name) p.type = .ok (mb p) ∧ (mb p).length = 8 * width p.type)
    (words : List (List Bool × List Nat))
    (hw : ∀ x ∈ words, x.1.length = 8 * len ∧ x.2.Nodup ∧ ∀ e ∈ x.2, e < x.1.length) :
    ∃ rs, analysisStep O thr structures nClusters false (addAll O (BufferModel.new w) as) words = .ok rs ∧
      rs.length = words.length ∧
      ∀ (i : Nat) (tx : List Bool) (errors : List Nat), words[i]? = some (tx, errors) →
        ∃ r st, rs[i]? = some r ∧ structures[i % nClusters]? = some st ∧
          ReportOf thr st (fieldScore O w fitv hist (bitsToBytes (flipAt tx errors)))
            (bitSays O w fitv hist mb st (bitsToBytes (flipAt tx errors))) tx (flipAt tx errors) errors r := by
  classical
  obtain ⟨_, _, h3⟩ := addAll_inv O w as
  have hfa : as.filter (fun a => decide (Addable a)) = as := List.filter_eq_self.2 fun a ha => by simpa using has a ha
  rw [hfa, ← hhist] at h3
  exact analyse_words thr structures nClusters len hc hcl _
    (fun st hs => ⟨hfit st hs, h3, (hr st hs).1, (hr st hs).2, hmb st hs⟩) words hw

/-- A word of 17 bytes against the model of one heartbeat, as in the example of C80: the last bit of the heartbeat's header is
inverted, and the word is reported with structure 0. -/
example (tx : List Bool) (htx : tx.length = 136) :
    ∃ rs, analysisStep zeroOps (1 / 10) [[(0, 0)]] 1 false (addAll zeroOps (BufferModel.new none) [(.bytes zeroBeat, [(0, 0)])])
      [(tx, [47]), (tx, [])] = .ok rs ∧ rs.length = 2 := by
  have hr : InRange 17 [(0, 0)] := by
    intro r hr
    simp at hr
    subst hr
    exact ⟨msg0, by decide +kernel, by decide, by decide, by decide⟩
  have hne : ∀ p ∈ fieldPlaces [(0, 0)], ([(BufArg.bytes zeroBeat, [(0, 0)])] : List (BufArg × List (Nat × Nat))).flatMap (takes p.name) ≠ [] := by
    decide +kernel
  obtain ⟨rs, h1, h2, _⟩ := c82_words zeroOps none (1 / 10) [(.bytes zeroBeat, [(0, 0)])]
    (by intro a ha; simp at ha; subst ha; exact ⟨_, rfl, hr⟩) [[(0, 0)]] 1 17 (by omega) (by simp)
    (by intro st hs; simp at hs; subst hs; exact ⟨hr, by simp [NonOverlapping]⟩) _ rfl (fun _ => (0, 0))
    (fun p => List.replicate (8 * width p.type) false) (fun _ _ _ _ => rfl)
    (fun st hs p hp => by
      simp at hs; subst hs
      exact ⟨by rw [meanBits, if_neg (hne p hp)]; rfl, by simp⟩)
    [(tx, [47]), (tx, [])] (by
      intro x hx
      simp at hx
      rcases hx with rfl | rfl
      · refine ⟨by omega, by simp, fun e he => ?_⟩
        simp at he; subst he; simp; omega
      · exact ⟨by omega, by simp, by simp⟩)
  exact ⟨rs, h1, h2⟩

/-- C82, refuted for `--learn 1`: the model is new and never gets a sample, so the first word with a field in its structure makes
the analysis raise, whatever the words. -/
theorem c82_learn_false (O : StatOps Val ℝ) (thr : ℝ) (structures : List (List (Nat × Nat))) (nClusters len : Nat)
    (st : List (Nat × Nat)) (hst : structures[0]? = some st) (hs : InRange len st) (hn : NonOverlapping st)
    (hf : fieldPlaces st ≠ []) (loaded : BufferModel ℝ) (tx : List Bool) (htx : tx.length = 8 * len) (errors : List Nat)
    (he : errors.Nodup) (hel : ∀ e ∈ errors, e < tx.length) (rest : List (List Bool × List Nat)) :
    analysisStep O thr structures nClusters true loaded ((tx, errors) :: rest) = .error .typeError := by
  have hrx : (flipAt tx errors).length = 8 * len := by rw [flipAt_length, htx]
  obtain ⟨e, hlen⟩ := predict_bits O (BufferModel.new (μ := ℝ) none) (flipAt tx errors) len hrx st
  obtain ⟨p, hp, hfp, -⟩ := predict_of_inv O (fun _ => ((0 : ℝ), (0 : ℝ))) none (BufferModel.new (μ := ℝ) none) (fun _ => [])
    (bufInv_new O none) (bitsToBytes (flipAt tx errors)) st (by rw [hlen]; exact hs) hn (fun q _ h => absurd rfl h)
  rw [← e] at hp
  rcases hpp : (BufferModel.new (μ := ℝ) none).predict O (.bits (flipAt tx errors)) st with ⟨m1, x⟩
  rw [hpp] at hp
  simp only at hp
  subst hp
  obtain ⟨d, hd, -⟩ := damaged_list hs hn errors
  have hlen8 : (flipAt tx errors).length / 8 = len := by omega
  have hnone : none ∈ p.fields := by
    rw [hfp]
    obtain ⟨q, hq⟩ := List.exists_mem_of_ne_nil _ hf
    exact List.mem_map.2 ⟨q, hq, by simp [scoreOf]⟩
  unfold analysisStep analyseWords
  rw [hst]
  simp only [if_true]
  unfold analyseWord
  rw [invertAt_eq tx errors he hel]
  simp only [hpp, hlen8, hd, c81_unmodelled _ hnone]

/-! ### The errors of a step -/

/-- C82: an error outside the word makes the step raise an IndexError, before anything else is looked at. -/
theorem c82_outside (O : StatOps Val ℝ) (thr : ℝ) (structures : List (List (Nat × Nat))) (nClusters : Nat)
    (hs : structures ≠ []) (learn : Bool) (loaded : BufferModel ℝ) (tx : List Bool) (errors : List Nat)
    (h : ∃ e ∈ errors, tx.length ≤ e) (rest : List (List Bool × List Nat)) :
    analysisStep O thr structures nClusters learn loaded ((tx, errors) :: rest) = .error .indexError := by
  obtain ⟨st, sts, rfl⟩ := List.exists_cons_of_ne_nil hs
  obtain ⟨e, he, hle⟩ := h
  have : invertAt tx errors = .error .indexError := by
    unfold invertAt
    rw [if_neg]
    intro hall
    have := List.all_eq_true.1 hall e he
    simp only [decide_eq_true_eq] at this
    omega
  unfold analysisStep analyseWords
  simp only [List.getElem?_cons_zero]
  unfold analyseWord
  rw [this]

/-- C82: every error of a word is counted once: as an information error at a position before `k`, as a parity error at the
others. -/
theorem c82_split (k : Nat) (errors : List Nat) :
    (errorSplit k errors).1 = (errors.filter fun e => e < k).length ∧
    (errorSplit k errors).2 = (errors.filter fun e => ¬ e < k).length ∧
    (errorSplit k errors).1 + (errorSplit k errors).2 = errors.length := by
  have h1 : (errorSplit k errors).1 = (errors.filter fun e => e < k).length := by
    rw [errorSplit, List.countP_eq_length_filter]
  have h2 : (errorSplit k errors).2 = (errors.filter fun e => ¬ e < k).length := by
    rw [errorSplit]
    simp only [Nat.not_lt, List.countP_eq_length_filter]
  refine ⟨h1, h2, ?_⟩
  rw [h1, h2]
  clear h1 h2
  induction errors with
  | nil => rfl
  | cons e es ih =>
    by_cases h : e < k
    · rw [List.filter_cons_of_pos (by simpa using h), List.filter_cons_of_neg (by simpa using h), List.length_cons,
        List.length_cons]
      omega
    · rw [List.filter_cons_of_neg (by simpa using h), List.filter_cons_of_pos (by simpa using h), List.length_cons,
        List.length_cons]
      omega

example : errorSplit 3 [0, 2, 3, 7] = (2, 2) := by decide

/-- C82: the raw error rate reported is at most the requested one, and by less than one bit of the word. -/
theorem c82_rate (n : Nat) (hn : 0 < n) (p : ℚ) (h0 : 0 ≤ p) :
    (errorCount n p : ℚ) / n ≤ p ∧ p < (errorCount n p : ℚ) / n + 1 / n := by
  have hnq : (0 : ℚ) < n := by exact_mod_cast hn
  have hnp : (0 : ℚ) ≤ n * p := mul_nonneg hnq.le h0
  have hf : ((errorCount n p : ℕ) : ℚ) = (n * p).floor := by
    unfold errorCount
    have : 0 ≤ (n * p).floor := Int.floor_nonneg.2 hnp
    exact_mod_cast congrArg (Int.cast : ℤ → ℚ) (Int.toNat_of_nonneg this)
  rw [hf]
  have h1 : (((n * p).floor : ℤ) : ℚ) ≤ n * p := Int.floor_le _
  have h2 : n * p < (((n * p).floor : ℤ) : ℚ) + 1 := Int.lt_floor_add_one _
  constructor
  · rw [div_le_iff₀ hnq]; linarith
  · rw [← add_div, lt_div_iff₀ hnq]; linarith

example : errorCount 1944 (1 / 100) = 19 := by decide +kernel

end NR
